import Verif.Proofs.StoreFetch

/-!
# Undoing the making of objects

`Extra C a b l`: token `b` differs from token `a` by new objects, all with handles in `l`, all of which can be destroyed.
-/

namespace Kry
open Spec
variable {C : Crypto}

/-- The stored object with these rows can be destroyed, wherever they are found. -/
def Killable (C : Crypto) (a : Aci) (u : Bytes) (r : List (Nat × DbVal)) : Prop :=
  ∀ (e : Env) (s : Store) (h : Handles) (n : Nat), TblOk s.db.objs → rowsOf s.db.objs u = some r → sameKey a s.aci →
    h.get n = some u → quiet e → ∃ o, s.fetch C e h n [CKA_DESTROYABLE] = .ok o ∧ o.isDestroyable = true

theorem sameKey_refl (a : Aci) : sameKey a a := ⟨rfl, fun _ => ⟨rfl, rfl⟩⟩

/-- New objects on the way from `a` to `b`. -/
structure Extra (C : Crypto) (a b : Token) (l : List Nat) : Prop where
  hok : HOk b
  tbl : TblOk b.store.db.objs
  sess : ∀ n o, AMap.get b.sess n = some o → AMap.get a.sess n = some o ∨ n ∈ l
  rows : ∀ g ∈ b.store.db.objs, g ∈ a.store.db.objs ∨
    ∃ n ∈ l, ∃ u, AMap.get b.sess n = none ∧ b.handles.get n = some u ∧ hasRow g.2 CKA_UNIQUE_ID (.text u) = true
  kill : ∀ n ∈ l, (∃ o, AMap.get b.sess n = some o ∧ o.isDestroyable = true) ∨
    (AMap.get b.sess n = none ∧ ∃ u r, b.handles.get n = some u ∧ rowsOf b.store.db.objs u = some r ∧ Killable C b.store.aci u r)

theorem Extra.refl {a : Token} (h : HOk a) (ht : TblOk a.store.db.objs) : Extra C a a [] :=
  ⟨h, ht, fun _ _ h => .inl h, fun _ h => .inl h, fun _ h => by cases h⟩

theorem store_groups {t t' : ObjTable} {u : Bytes} {o : Obj} (ok : TblOk t) (h1 : uidCount o.attrs ≤ 1)
    (hu : o.getStr CKA_UNIQUE_ID = .ok u) (h : storeObject t u o = .ok t') :
    ∀ g ∈ t', g ∈ t ∨ hasRow g.2 CKA_UNIQUE_ID (.text u) = true := by
  obtain ⟨id, fresh, h⟩ := store_id ok h
  cases hp : putRows [] o.attrs with
  | error r => rw [hp] at h; cases h
  | ok rows =>
    obtain ⟨hn, hg⟩ := putRows_uid h1 hu hp
    have hne : rows ≠ [] := by intro e; rw [e] at hg; cases hg
    have ht : t' = insertGroup (id, rows) (deleteObject t u) := by
      rw [hp] at h
      cases rows with
      | nil => exact absurd rfl hne
      | cons r rows => injection h with h; exact h.symm
    subst ht
    intro g hg'
    rcases mem_insertGroup.1 hg' with rfl | hg'
    · exact .inr ((hasRow_get hn).2 hg)
    · exact .inl ((mem_delete ok).1 hg').1

/-- What `insertObject` does. -/
theorem insert_cases (e : Env) (k : Nat) {t : Token} {o : Obj} (ok : HOk t) (tb : TblOk t.store.db.objs) (hz : Zero o) (hr : Regular o) :
    (∃ r t', t.insertObject C e k o = (.error r, t') ∧ t'.sess = t.sess ∧ t'.store = t.store) ∨
    (∃ t', t.insertObject C e k o = (.ok t.handles.next, t') ∧ t'.store = t.store ∧
      t'.sess = AMap.insert t.sess t.handles.next { o with handle := t.handles.next, session := k }) ∨
    (∃ t' u r, t.insertObject C e k o = (.ok t.handles.next, t') ∧ t'.sess = t.sess ∧ t'.store.aci = t.store.aci ∧
      o.getStr CKA_UNIQUE_ID = .ok u ∧ t.handles.getByUid u = none ∧ t'.handles.get t.handles.next = some u ∧
      rowsOf t'.store.db.objs u = some r ∧ (∀ v, v ≠ u → rowsOf t'.store.db.objs v = rowsOf t.store.db.objs v) ∧
      (∀ g ∈ t'.store.db.objs, g ∈ t.store.db.objs ∨ hasRow g.2 CKA_UNIQUE_ID (.text u) = true) ∧ TblOk t'.store.db.objs ∧
      (o.isDestroyable = true → Killable C t.store.aci u r)) := by
  unfold Token.insertObject
  split
  · split
    · exact .inl ⟨_, _, rfl, rfl, rfl⟩
    · simp only
      rcases store_shape (C := C) e t.store t.handles o hz.handle with
        ⟨r, h⟩ | ⟨F, uid, x, hF, hu, hx, ⟨r, _, h⟩ | ⟨hins, r, hrr, h⟩⟩
      · rw [h]; exact .inl ⟨_, _, rfl, rfl, rfl⟩
      · rw [h]; exact .inl ⟨_, _, rfl, rfl, rfl⟩
      · have hi := hs_insert (D := fun _ => False) ok.hs uid
        cases r with
        | error r =>
          have hdb : (t.store.db.storeObj (e.sub 1) (delAll x F.ephemeral)).2 = t.store.db := by
            unfold Db.storeObj at hrr ⊢
            repeat' split
            all_goals first | rfl | skip
            simp_all
          rw [h, hdb]; exact .inl ⟨_, _, rfl, rfl, rfl⟩
        | ok _ =>
          refine .inr (.inr ?_)
          have h' : t.store.store C e t.handles o = (.ok t.handles.next, _, _) := h
          obtain ⟨F', u, r, _, hu', hrow, hread⟩ := store_fetch tb hr h'
          rw [hu] at hu'
          injection hu' with hu'
          subst hu'
          have hx2 : Regular x ∧ x.find CKA_UNIQUE_ID = o.find CKA_UNIQUE_ID := by
            obtain ⟨kk, hm⟩ := objFactory_mem hF
            have hb := allFactories_spec sensitive_bytes hm
            simp only [List.all_eq_true, beq_iff_eq] at hb
            split at hx
            · exact ⟨regular_encryptLoop hb hx hr, encryptLoop_find hx (uid_notIn hF).1⟩
            · injection hx with hx; rw [← hx]; exact ⟨hr, rfl⟩
          have hdel : ∀ t ∈ F.ephemeral, t ≠ CKA_CLASS := by
            intro t ht e
            rw [ephemeral_mem hF ht] at e
            exact absurd e (by decide)
          have hu2 : (delAll x F.ephemeral).getStr CKA_UNIQUE_ID = .ok uid := by
            unfold Obj.getStr at hu ⊢
            rw [find_delAll, if_neg (uid_notIn hF).2, hx2.2]
            exact hu
          have hst : ∃ t', storeObject t.store.db.objs uid (delAll x F.ephemeral) = .ok t' ∧
              (t.store.db.storeObj (e.sub 1) (delAll x F.ephemeral)).2.objs = t' := by
            unfold Db.storeObj at hrr ⊢
            rw [hu2] at hrr ⊢
            simp only at hrr ⊢
            split at hrr
            · cases hrr
            · cases ht' : storeObject t.store.db.objs uid (delAll x F.ephemeral) with
              | error r => rw [ht'] at hrr; cases hrr
              | ok t' => exact ⟨t', rfl, rfl⟩
          obtain ⟨t', hst, hob⟩ := hst
          have huc := regular_uidCount (regular_delAll hx2.1 hdel)
          obtain ⟨ok', rows, _, hrows⟩ := store_inv tb huc hu2 hst
          have hgr := store_groups tb huc hu2 hst
          rw [h]
          refine ⟨_, uid, r, rfl, rfl, rfl, hu, (hi.2.2.2.1 hins).2, (hi.2.2.2.1 hins).1, hrow, ?_, ?_, ?_, ?_⟩
          · intro v hv
            show rowsOf (t.store.db.storeObj (e.sub 1) (delAll x F.ephemeral)).2.objs v = _
            rw [hob, hrows, if_neg (Ne.symm hv)]
          · show ∀ g ∈ (t.store.db.storeObj (e.sub 1) (delAll x F.ephemeral)).2.objs, _
            rw [hob]; exact hgr
          · show TblOk (t.store.db.storeObj (e.sub 1) (delAll x F.ephemeral)).2.objs
            rw [hob]; exact ok'
          · intro hd e2 s2 h2 n2 ok2 hr2 hk hg q
            obtain ⟨o2, h3, _, _, h4⟩ := hread (e2 := e2) (s2 := s2) (h2 := h2) (n2 := n2) (hints := [CKA_DESTROYABLE]) ok2 hr2 hk hg q
              (by decide)
            refine ⟨o2, h3, ?_⟩
            have hkept : kept F' CKA_DESTROYABLE := by
              refine ⟨by decide +kernel, fun hm => ?_⟩
              have := ephemeral_mem (o := o) (F := F') (by assumption) hm
              exact absurd this (by decide)
            have := h4 CKA_DESTROYABLE
            rw [if_pos ⟨.inr (by decide), hkept⟩] at this
            unfold Obj.isDestroyable Obj.boolOr at hd ⊢
            rw [this]
            cases hf : o.find CKA_DESTROYABLE with
            | none => rw [hf] at hd; exact hd
            | some a =>
              rw [hf] at hd
              simp only [Option.map_some]
              rw [normA_num (by rw [find_typ hf]; decide +kernel)]
              exact hd
  · simp only
    split
    · exact .inl ⟨_, _, rfl, rfl, rfl⟩
    · rename_i v hv
      have hb1 : t.handles.bump.1 = t.handles.next := rfl
      rw [hb1]
      generalize t.handles.bump.2.insert t.handles.next v = q
      obtain ⟨r, h2⟩ := q
      cases r with
      | error r => exact .inl ⟨_, _, rfl, rfl, rfl⟩
      | ok _ => exact .inr (.inl ⟨_, rfl, rfl, rfl⟩)

theorem Extra.insert {a b : Token} {l : List Nat} (h : Extra C a b l) (e : Env) (k : Nat) {o : Obj} (hz : Zero o) (hr : Regular o) :
    match (b.insertObject C e k o).1 with
    | .error _ => Extra C a (b.insertObject C e k o).2 l
    | .ok n => n ∉ l ∧ (o.isDestroyable = true → Extra C a (b.insertObject C e k o).2 (n :: l)) := by
  have go := go_insert (C := C) (k := k) (D := fun _ => False) e b o hz h.hok
  have lt : ∀ n ∈ l, n ≠ b.handles.next := by
    intro n hn e
    rcases h.kill n hn with ⟨o, ho, _⟩ | ⟨_, u, _, hg, _⟩
    · obtain ⟨_, u, hu, _⟩ := h.hok.sess n o ho
      exact absurd (h.hok.hs.low _ _ hu).2 (by rw [e]; exact Nat.lt_irrefl _)
    · exact absurd (h.hok.hs.low _ _ hg).2 (by rw [e]; exact Nat.lt_irrefl _)
  have keep := fun n u hg => go.2.hs.keep n u hg (fun h => h)
  have nosess : AMap.get b.sess b.handles.next = none := by
    cases hc : AMap.get b.sess b.handles.next with
    | none => rfl
    | some x =>
      obtain ⟨_, u, hu, _⟩ := h.hok.sess _ x hc
      exact absurd (h.hok.hs.low _ u hu).2 (Nat.lt_irrefl _)
  rcases insert_cases (C := C) e k h.hok h.tbl hz hr with ⟨r, t', he, hs, hst⟩ | ⟨t', he, hst, hs⟩ |
    ⟨t', u, r, he, hs, haci, hu, hfree, hnew, hrow, hother, hgr, htb, hk⟩
  · rw [he] at go keep ⊢
    simp only at go keep ⊢
    refine ⟨go.1, by rw [hst]; exact h.tbl, by rw [hs]; exact h.sess, ?_, ?_⟩
    · intro g hg
      rw [hst] at hg
      rcases h.rows g hg with hg | ⟨n, hn, u, h1, h2, h3⟩
      · exact .inl hg
      · exact .inr ⟨n, hn, u, by rw [hs]; exact h1, keep n u h2, h3⟩
    · intro n hn
      rcases h.kill n hn with h1 | ⟨h1, u, r, h2, h3, h4⟩
      · left; rw [hs]; exact h1
      · right; rw [hs, hst]; exact ⟨h1, u, r, keep n u h2, h3, h4⟩
  · rw [he] at go keep ⊢
    simp only at go keep ⊢
    have hget : ∀ n ∈ l, AMap.get t'.sess n = AMap.get b.sess n := by
      intro n hn
      rw [hs, AMap.get_insert, if_neg (fun e => lt n hn e.symm)]
    refine ⟨fun h => lt _ h rfl, fun hd => ⟨go.1, by rw [hst]; exact h.tbl, ?_, ?_, ?_⟩⟩
    · intro n x hx
      rw [hs, AMap.get_insert] at hx
      split at hx
      · rename_i e; subst e; exact .inr (List.mem_cons_self ..)
      · rcases h.sess n x hx with h1 | h1
        · exact .inl h1
        · exact .inr (List.mem_cons_of_mem _ h1)
    · intro g hg
      rw [hst] at hg
      rcases h.rows g hg with hg | ⟨n, hn, u, h1, h2, h3⟩
      · exact .inl hg
      · exact .inr ⟨n, List.mem_cons_of_mem _ hn, u, by rw [hget n hn]; exact h1, keep n u h2, h3⟩
    · intro n hn
      rcases List.mem_cons.1 hn with e | hn
      · left
        rw [e, hs, AMap.get_insert, if_pos rfl]
        exact ⟨_, rfl, hd⟩
      · rcases h.kill n hn with h1 | ⟨h1, u, r, h2, h3, h4⟩
        · left; rw [hget n hn]; exact h1
        · right; rw [hget n hn, hst]; exact ⟨h1, u, r, keep n u h2, h3, h4⟩
  · rw [he] at go keep ⊢
    simp only at go keep ⊢
    have hne : ∀ n v, b.handles.get n = some v → v ≠ u := by
      rintro n v hg rfl
      rw [h.hok.hs.getByUid hg] at hfree
      cases hfree
    refine ⟨fun h => lt _ h rfl, fun hd => ⟨go.1, htb, ?_, ?_, ?_⟩⟩
    · intro n x hx
      rw [hs] at hx
      rcases h.sess n x hx with h1 | h1
      · exact .inl h1
      · exact .inr (List.mem_cons_of_mem _ h1)
    · intro g hg
      rcases hgr g hg with hg | hg
      · rcases h.rows g hg with hg | ⟨n, hn, v, h1, h2, h3⟩
        · exact .inl hg
        · exact .inr ⟨n, List.mem_cons_of_mem _ hn, v, by rw [hs]; exact h1, keep n v h2, h3⟩
      · exact .inr ⟨_, List.mem_cons_self .., u, by rw [hs]; exact nosess, hnew, hg⟩
    · intro n hn
      rcases List.mem_cons.1 hn with e | hn
      · right
        rw [e, hs, haci]
        exact ⟨nosess, u, r, hnew, hrow, hk hd⟩
      · rcases h.kill n hn with h1 | ⟨h1, v, r, h2, h3, h4⟩
        · left; rw [hs]; exact h1
        · right; rw [hs, haci]; exact ⟨h1, v, r, keep n v h2, by rw [hother v (hne n v h2)]; exact h3, h4⟩

theorem Extra.destroy {a b : Token} {l : List Nat} (h : Extra C a b l) {e : Env} (q : quiet e) {n : Nat} (hn : n ∈ l) :
    Extra C a (b.destroyObject C e n).2 (l.filter (· != n)) := by
  have go := go_destroy (C := C) (k := 0) (D := fun m => m = n) e n b rfl h.hok
  have ml : ∀ m, m ∈ l.filter (· != n) ↔ m ∈ l ∧ m ≠ n := by
    intro m; simp [List.mem_filter]
  rcases h.kill n hn with ⟨o, ho, hdo⟩ | ⟨hno, u, r, hg, hr, hk⟩
  · have he : b.destroyObject C e n = (.ok (), { b with sess := AMap.erase b.sess n, handles := b.handles.remove n }) := by
      unfold Token.destroyObject
      rw [ho]
      simp only
      rw [if_neg (by simp [hdo])]
    rw [he] at go ⊢
    simp only at go ⊢
    refine ⟨go.1, h.tbl, ?_, ?_, ?_⟩
    · intro m x hx
      simp only [AMap.get_erase] at hx
      split at hx
      · cases hx
      · rename_i hne
        rcases h.sess m x hx with h1 | h1
        · exact .inl h1
        · exact .inr ((ml m).2 ⟨h1, fun e => hne (by rw [e])⟩)
    · intro g hgm
      rcases h.rows g hgm with h1 | ⟨m, hm, v, h1, h2, h3⟩
      · exact .inl h1
      · have hmn : m ≠ n := by rintro rfl; rw [ho] at h1; cases h1
        refine .inr ⟨m, (ml m).2 ⟨hm, hmn⟩, v, ?_, ?_, h3⟩
        · simp only [AMap.get_erase]; split
          · rfl
          · exact h1
        · simp only [get_remove]; rw [if_neg (by first | exact hmn | exact Ne.symm hmn)]; exact h2
    · intro m hm
      obtain ⟨hm, hmn⟩ := (ml m).1 hm
      have hge : AMap.get (AMap.erase b.sess n) m = AMap.get b.sess m := by
        simp only [AMap.get_erase]; rw [if_neg (by first | exact hmn | exact Ne.symm hmn)]
      rcases h.kill m hm with h1 | ⟨h1, v, r, h2, h3, h4⟩
      · left; simp only [hge]; exact h1
      · right
        simp only [hge]
        refine ⟨h1, v, r, ?_, h3, h4⟩
        simp only [get_remove]; rw [if_neg (by first | exact hmn | exact Ne.symm hmn)]; exact h2
  · obtain ⟨o, hf, hdo⟩ := hk (e.sub 0) b.store b.handles n h.tbl hr (sameKey_refl _) hg (quiet_sub q 0)
    have he : b.destroyObject C e n = (.ok (), { b with
        store := { b.store with db := { b.store.db with objs := deleteObject b.store.db.objs u } },
        handles := b.handles.remove n }) := by
      unfold Token.destroyObject
      rw [hno]
      simp only
      rw [hf]
      simp only
      rw [if_neg (by simp [hdo])]
      unfold Store.remove
      rw [hg]
      simp only
      unfold Db.removeByUid
      rw [quiet_fails (quiet_sub q 1)]
    rw [he] at go ⊢
    simp only at go ⊢
    have inj : ∀ m v, b.handles.get m = some v → m ≠ n → v ≠ u := by
      rintro m v h1 hmn rfl
      exact hmn (h.hok.hs.inj h1 hg)
    refine ⟨go.1, tblOk_delete h.tbl u, ?_, ?_, ?_⟩
    · intro m x hx
      rcases h.sess m x hx with h1 | h1
      · exact .inl h1
      · refine .inr ((ml m).2 ⟨h1, ?_⟩)
        rintro rfl
        have : AMap.get b.sess m = some x := hx
        rw [hno] at this; cases this
    · intro g hgm
      obtain ⟨h1, h2⟩ := (mem_delete h.tbl).1 hgm
      rcases h.rows g h1 with h3 | ⟨m, hm, v, h3, h4, h5⟩
      · exact .inl h3
      · have hmn : m ≠ n := by
          rintro rfl
          rw [hg] at h4
          injection h4 with h4
          rw [← h4, h2] at h5
          cases h5
        refine .inr ⟨m, (ml m).2 ⟨hm, hmn⟩, v, h3, ?_, h5⟩
        simp only [get_remove]; rw [if_neg (by first | exact hmn | exact Ne.symm hmn)]; exact h4
    · intro m hm
      obtain ⟨hm, hmn⟩ := (ml m).1 hm
      rcases h.kill m hm with h1 | ⟨h1, v, r, h2, h3, h4⟩
      · exact .inl h1
      · right
        refine ⟨h1, v, r, ?_, ?_, h4⟩
        · simp only [get_remove]; rw [if_neg (by first | exact hmn | exact Ne.symm hmn)]; exact h2
        · rw [rowsOf_delete h.tbl, if_neg (Ne.symm (inj m v h2 hmn))]; exact h3

theorem Extra.insertAll {a b : Token} {l : List Nat} (h : Extra C a b l) (e : Env) (k : Nat) (os : List Obj)
    (ho : ∀ o ∈ os, Regular o ∧ o.isDestroyable = true) (i : Nat) :
    ∀ r l' b', Kry.insertAll C e k b os i = (r, l', b') →
      ∃ l2, Extra C a b' l2 ∧ (∀ n, n ∈ l2 ↔ n ∈ l ∨ n ∈ l') ∧ l'.Nodup ∧ ∀ n ∈ l', n ∉ l := by
  induction os generalizing b l i with
  | nil =>
    intro r l' b' hx
    unfold Kry.insertAll at hx
    injection hx with _ hx
    injection hx with h1 h2
    subst h1; subst h2
    exact ⟨l, h, by simp, List.nodup_nil, fun _ h => by cases h⟩
  | cons o os ih =>
    intro r l' b' hx
    unfold Kry.insertAll at hx
    have ho1 := ho o (List.mem_cons_self ..)
    have hd' : (fresh o).isDestroyable = true := by
      have e1 : (fresh o).attrs = o.attrs := oneUid_same _ ho1.1.once
      have := ho1.2
      unfold Obj.isDestroyable Obj.boolOr Obj.find at this ⊢
      rw [e1]; exact this
    have z := h.insert (e.sub i) k (zero_fresh o) (regular_fresh ho1.1)
    generalize b.insertObject C (e.sub i) k (fresh o) = p at z hx
    obtain ⟨r1, b1⟩ := p
    cases r1 with
    | error r1 =>
      simp only at hx z
      injection hx with _ hx
      injection hx with h1 h2
      subst h1; subst h2
      exact ⟨l, z, by simp, List.nodup_nil, fun _ h => by cases h⟩
    | ok n =>
      simp only at hx z
      have := ih (z.2 hd') (fun o ho' => ho o (List.mem_cons_of_mem _ ho')) (i + 1)
      generalize Kry.insertAll C e k b1 os (i + 1) = p at this hx
      obtain ⟨r2, l2, b2⟩ := p
      simp only at hx
      injection hx with _ hx
      injection hx with h1 h2
      subst h1; subst h2
      obtain ⟨l3, h3, h4, h5, h6⟩ := this _ _ _ rfl
      refine ⟨l3, h3, fun m => ?_, List.nodup_cons.2 ⟨fun hm => h6 n hm (List.mem_cons_self ..), h5⟩, fun m hm hl => ?_⟩
      rotate_left
      · rcases List.mem_cons.1 hm with e | hm
        · exact z.1 (e ▸ hl)
        · exact h6 m hm (List.mem_cons_of_mem _ hl)
      rw [h4]
      simp only [List.mem_cons]
      constructor
      · rintro ((h | h) | h)
        · exact .inr (.inl h)
        · exact .inl h
        · exact .inr (.inr h)
      · rintro (h | h | h)
        · exact .inl (.inr h)
        · exact .inl (.inl h)
        · exact .inr h

theorem Extra.perm {a b : Token} {l l' : List Nat} (h : Extra C a b l) (e : ∀ n, n ∈ l ↔ n ∈ l') : Extra C a b l' where
  hok := h.hok
  tbl := h.tbl
  sess := fun n o ho => (h.sess n o ho).imp id (e n).1
  rows := fun g hg => (h.rows g hg).imp id (fun ⟨n, hn, x⟩ => ⟨n, (e n).1 hn, x⟩)
  kill := fun n hn => h.kill n ((e n).2 hn)

theorem Extra.destroyAll {a b : Token} {l : List Nat} (h : Extra C a b l) {e : Env} (q : quiet e) (ds : List Nat) (i : Nat)
    (hd : ∀ n, n ∈ ds ↔ n ∈ l) (hn : ds.Nodup) : Extra C a (Kry.destroyAll C e b ds i) [] := by
  induction ds generalizing b l i with
  | nil => exact h.perm (fun n => ⟨fun x => (hd n).2 x, fun x => by cases x⟩)
  | cons n ds ih =>
    rw [List.nodup_cons] at hn
    unfold Kry.destroyAll
    refine ih (h.destroy (quiet_sub q i) ((hd n).1 (List.mem_cons_self ..))) (i + 1) ?_ hn.2
    intro m
    rw [List.mem_filter, bne_iff_ne, ← hd m, List.mem_cons]
    constructor
    · intro hm
      exact ⟨.inr hm, fun e => hn.1 (e ▸ hm)⟩
    · rintro ⟨h1 | h1, h2⟩
      · exact absurd h1 h2
      · exact h1

theorem fresh_destroyable {o : Obj} (hr : Regular o) : (fresh o).isDestroyable = o.isDestroyable := by
  have e1 : (fresh o).attrs = o.attrs := oneUid_same _ hr.once
  unfold Obj.isDestroyable Obj.boolOr Obj.find
  rw [e1]

variable {M : Mechs} {O : Oracle}

theorem genPair_undo (hM : RegularMechs M O) {e : Env} (q : quiet (e.sub 3)) {h m : Nat} {p : Bytes} {pub priv : Template} {x : Session}
    {t : Token} (ok : HOk t) (tb : TblOk t.store.db.objs)
    (hd : ∀ e a b, M.genPair e m p pub priv = .ok (a, b) → a.isDestroyable = true) {r : Rv} {t' : Token}
    (hf : fnGenPair M C e h m p pub priv x t = (.error r, t')) : Extra C t t' [] := by
  have z : Extra C t t [] := .refl ok tb
  unfold fnGenPair at hf
  split at hf
  · injection hf with _ hf; rw [← hf]; exact z
  split at hf
  · injection hf with _ hf; rw [← hf]; exact z
  split at hf
  · injection hf with _ hf; rw [← hf]; exact z
  split at hf
  · injection hf with _ hf; rw [← hf]; exact z
  split at hf
  · injection hf with _ hf; rw [← hf]; exact z
  rename_i pubk privk hg
  obtain ⟨ra, rb⟩ := hM.genPair _ _ _ _ _ _ _ hg
  have z1 := z.insert (e.sub 1) h (zero_fresh pubk) (regular_fresh ra)
  generalize t.insertObject C (e.sub 1) h (fresh pubk) = y at z1 hf
  obtain ⟨r1, t1⟩ := y
  cases r1 with
  | error r1 => simp only at hf z1; injection hf with _ hf; rw [← hf]; exact z1
  | ok n1 =>
    simp only at hf z1
    have z1 := z1.2 (by rw [fresh_destroyable ra]; exact hd _ _ _ hg)
    have z2 := z1.insert (e.sub 2) h (zero_fresh privk) (regular_fresh rb)
    generalize t1.insertObject C (e.sub 2) h (fresh privk) = y at z2 hf
    obtain ⟨r2, t2⟩ := y
    cases r2 with
    | ok n2 => simp only at hf; cases hf
    | error r2 =>
      simp only at hf z2
      injection hf with _ hf
      rw [← hf]
      have := z2.destroy q (List.mem_cons_self ..)
      simpa using this

theorem derive_undo (hM : RegularMechs M O) {e : Env} (q : quiet (e.sub 5)) {h m key : Nat} {p : Bytes} {tm : Template} {x : Session}
    {t : Token} (ok : HOk t) (tb : TblOk t.store.db.objs)
    (hd : ∀ e k extra l, M.derive e m p k extra tm = .ok l → ∀ o ∈ l, o.isDestroyable = true)
    (hc : ∀ e k extra o os, M.derive e m p k extra tm = .ok (o :: os) → os ≠ [] → manyKeys m →
      m ≠ CKM_SP800_108_DOUBLE_PIPELINE_KDF ∧ M.adkCount m p = .ok os.length) {r : Rv} {t' : Token}
    (hf : fnDerive M C e h m p key tm x t = (.error r, t')) : Extra C t t' [] := by
  have z : Extra C t t [] := .refl ok tb
  unfold fnDerive at hf
  split at hf
  · injection hf with _ hf; rw [← hf]; exact z
  split at hf
  · injection hf with _ hf; rw [← hf]; exact z
  split at hf
  · injection hf with _ hf; rw [← hf]; exact z
  split at hf
  · injection hf with _ hf; rw [← hf]; exact z
  split at hf
  · injection hf with _ hf; rw [← hf]; exact z
  split at hf
  · injection hf with _ hf; rw [← hf]; exact z
  split at hf
  · injection hf with _ hf; rw [← hf]; exact z
  split at hf
  · injection hf with _ hf; rw [← hf]; exact z
  split at hf
  · injection hf with _ hf; rw [← hf]; exact z
  · injection hf with _ hf; rw [← hf]; exact z
  rename_i o os hg
  have hall : ∀ o' ∈ o :: os, Regular o' ∧ o'.isDestroyable = true := fun o' h' =>
    ⟨hM.derive _ _ _ _ _ _ _ hg o' h', hd _ _ _ _ hg o' h'⟩
  have ra := (hall o (List.mem_cons_self ..)).1
  have z1 := z.insert (e.sub 3) h (zero_fresh o) (regular_fresh ra)
  split at hf
  · rename_i hmk
    generalize t.insertObject C (e.sub 3) h (fresh o) = y at z1 hf
    obtain ⟨r1, t1⟩ := y
    cases r1 with
    | error r1 => simp only at hf z1; injection hf with _ hf; rw [← hf]; exact z1
    | ok n =>
      simp only at hf z1
      split at hf
      · cases hf
      rename_i hne
      obtain ⟨hm, hcnt⟩ := hc _ _ _ _ _ hg hne hmk
      rw [if_neg hm, hcnt] at hf
      simp only [ne_eq, not_true, if_false] at hf
      have z2 := z1.2 (by rw [fresh_destroyable ra]; exact (hall o (List.mem_cons_self ..)).2)
      have z3 := z2.insertAll (e.sub 4) h os (fun o' h' => hall o' (List.mem_cons_of_mem _ h')) 0
      generalize Kry.insertAll C (e.sub 4) h t1 os 0 = y at z3 hf
      obtain ⟨r2, l, t2⟩ := y
      cases r2 with
      | none => simp only at hf; cases hf
      | some r2 =>
        simp only at hf
        injection hf with _ hf
        rw [← hf]
        obtain ⟨l2, z4, hl2, hnd, hnot⟩ := z3 _ _ _ rfl
        refine z4.destroyAll q _ 0 (fun k => ?_) ?_
        · rw [hl2, List.mem_append, List.mem_singleton]; exact Or.comm
        · rw [List.nodup_append]
          refine ⟨hnd, List.nodup_cons.2 ⟨List.not_mem_nil, List.nodup_nil⟩, fun a ha b hb => ?_⟩
          rw [List.mem_singleton.1 hb]
          rintro rfl
          exact hnot _ ha (List.mem_cons_self ..)
  split at hf
  · split at hf
    · injection hf with _ hf; rw [← hf]; exact z
    have z3 := z.insertAll (e.sub 4) h (o :: os) hall 0
    generalize Kry.insertAll C (e.sub 4) h t (o :: os) 0 = y at z3 hf
    obtain ⟨r2, l, t2⟩ := y
    cases r2 with
    | none => simp only at hf; cases hf
    | some r2 =>
      simp only at hf
      injection hf with _ hf
      rw [← hf]
      obtain ⟨l2, z4, hl2, hnd, hnot⟩ := z3 _ _ _ rfl
      exact z4.destroyAll q _ 0 (fun k => by rw [hl2]; simp) hnd
  split at hf
  · injection hf with _ hf; rw [← hf]; exact z
  generalize t.insertObject C (e.sub 3) h (fresh o) = y at z1 hf
  obtain ⟨r1, t1⟩ := y
  cases r1 with
  | error r1 => simp only at hf z1; injection hf with _ hf; rw [← hf]; exact z1
  | ok n => simp only at hf; cases hf

end Kry
