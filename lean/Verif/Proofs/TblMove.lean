import Verif.Proofs.Table

/-!
# What each primitive change of a token does to the `objects` table
-/

namespace Kry
open Spec

/-- No factory marks the unique id as sensitive or ephemeral. -/
theorem uid_plain : allFactories (fun F => !F.sensitive.contains CKA_UNIQUE_ID &&
    !F.ephemeral.contains CKA_UNIQUE_ID) = true := by decide +kernel

theorem uid_notIn {o : Obj} {F : Factory} (hF : objFactory o = .ok F) :
    CKA_UNIQUE_ID ∉ F.sensitive ∧ CKA_UNIQUE_ID ∉ F.ephemeral := by
  obtain ⟨key, hk⟩ := objFactory_mem hF
  have := allFactories_spec uid_plain hk
  simpa [List.contains_iff_mem] using this

theorem find_delAttr (o : Obj) (t u : Nat) : (o.delAttr t).find u = if u = t then none else o.find u := by
  unfold Obj.find Obj.delAttr
  simp only [List.find?_filter]
  by_cases h : u = t
  · subst h
    rw [if_pos rfl, List.find?_eq_none]
    intro a _
    simp
  · rw [if_neg h]
    congr 1
    funext a
    by_cases ha : a.typ = u
    · simp [ha, h]
    · simp [ha]

theorem find_delAll (l : List Nat) (o : Obj) (u : Nat) :
    (delAll o l).find u = if u ∈ l then none else o.find u := by
  unfold delAll
  induction l generalizing o with
  | nil => simp
  | cons x l ih =>
    rw [List.foldl_cons, ih, find_delAttr]
    by_cases h1 : u ∈ l
    · simp [h1]
    · by_cases h2 : u = x
      · simp [h2]
      · simp [h1, h2]

theorem zero_delAll {l : List Nat} {o : Obj} (z : Zero o) : Zero (delAll o l) := by
  unfold delAll
  induction l generalizing o with
  | nil => exact z
  | cons x l ih =>
    refine ih ⟨z.handle, z.session, ?_⟩
    have h := z.uid
    unfold uidCount Obj.delAttr at *
    simp only [List.filter_filter]
    refine Nat.le_trans ?_ h
    rw [show (fun a : Attr => a.typ == CKA_UNIQUE_ID && a.typ != x) =
      (fun a => (fun a : Attr => a.typ != x) a && (fun a : Attr => a.typ == CKA_UNIQUE_ID) a) by
        funext a; exact Bool.and_comm .., ← List.filter_filter]
    exact List.length_filter_le _ _

theorem toStr_val {a : Attr} {u : Bytes} (h : a.toStr = .ok u) : u = a.value := by
  unfold Attr.toStr at h
  repeat' split at h
  all_goals first | (cases h; done) | (injection h with h; exact h.symm)

variable {C : Crypto}

theorem encryptLoop_find {e : Env} {a : Aci} {uid : Bytes} {ts : List Nat} {i : Nat} {o o' : Obj} {u : Nat}
    (hc : encryptLoop C e a uid ts i o = .ok o') (hu : u ∉ ts) : o'.find u = o.find u := by
  induction ts generalizing i o with
  | nil => injection hc with hc; rw [← hc]
  | cons x ts ih =>
    have hx : u ∉ ts := fun h => hu (List.mem_cons_of_mem _ h)
    unfold encryptLoop at hc
    split at hc
    · exact ih hc hx
    · split at hc
      · cases hc
      · split at hc
        · cases hc
        · rename_i o1 h1
          rw [ih hc hx, find_setAttr h1, if_neg]
          show ¬ x = u
          intro e; exact hu (by rw [e]; exact List.mem_cons_self ..)

theorem encryptLoop_zero {e : Env} {a : Aci} {uid : Bytes} {ts : List Nat} {i : Nat} {o o' : Obj}
    (hc : encryptLoop C e a uid ts i o = .ok o') (z : Zero o) : Zero o' := by
  induction ts generalizing i o with
  | nil => injection hc with hc; rw [← hc]; exact z
  | cons x ts ih =>
    unfold encryptLoop at hc
    split at hc
    · exact ih hc z
    · split at hc
      · cases hc
      · split at hc
        · cases hc
        · rename_i o1 h1
          exact ih hc (zero_setAttr h1 z)

theorem setAllCk_keep {tm : Template} {o o' : Obj} (h : setAllCk o tm = .ok o') (z : Zero o)
    (hu : ∀ c ∈ tm, c.typ ≠ CKA_UNIQUE_ID) : Zero o' ∧ o'.find CKA_UNIQUE_ID = o.find CKA_UNIQUE_ID := by
  induction tm generalizing o with
  | nil => injection h with h; rw [← h]; exact ⟨z, rfl⟩
  | cons c tm ih =>
    unfold setAllCk at h
    split at h
    · cases h
    · rename_i a ha
      split at h
      · cases h
      · rename_i o1 h1
        obtain ⟨z', hf⟩ := ih h (zero_setAttr h1 z) (fun c hc => hu c (List.mem_cons_of_mem _ hc))
        refine ⟨z', ?_⟩
        rw [hf, find_setAttr h1, if_neg]
        rw [fromCk_typ ha]
        exact hu c (List.mem_cons_self ..)

theorem replaceFirst_typ {tm : Template} {t : Nat} {v : Bytes} {c : CkAttr} (h : c ∈ replaceFirst tm t v) :
    c.typ = t ∨ c ∈ tm := by
  induction tm with
  | nil =>
    rcases List.mem_cons.1 h with e | e
    · rw [e]; exact .inl rfl
    · cases e
  | cons x tm ih =>
    unfold replaceFirst at h
    split at h
    · rcases List.mem_cons.1 h with e | e
      · rw [e]; exact .inl rfl
      · exact .inr (List.mem_cons_of_mem _ e)
    · rcases List.mem_cons.1 h with e | e
      · rw [e]; exact .inr (List.mem_cons_self ..)
      · rcases ih e with h | h
        · exact .inl h
        · exact .inr (List.mem_cons_of_mem _ h)

theorem updateEncrypt_typ {e : Env} {a : Aci} {uid : Bytes} {ts : List Nat} {i : Nat} {tm tm' : Template}
    (h : updateEncrypt C e a uid ts i tm = .ok tm') : ∀ c ∈ tm', c.typ ∈ ts ∨ ∃ c' ∈ tm, c'.typ = c.typ := by
  induction ts generalizing i tm with
  | nil => injection h with h; rw [← h]; exact fun c hc => .inr ⟨c, hc, rfl⟩
  | cons x ts ih =>
    unfold updateEncrypt at h
    split at h
    · intro c hc
      rcases ih h c hc with h | h
      · exact .inl (List.mem_cons_of_mem _ h)
      · exact .inr h
    · split at h
      · cases h
      · intro c hc
        rcases ih h c hc with h | ⟨c', h1, h2⟩
        · exact .inl (List.mem_cons_of_mem _ h)
        · rcases replaceFirst_typ h1 with h | h
          · exact .inl (by rw [← h2, h]; exact List.mem_cons_self ..)
          · exact .inr ⟨c', h, h2⟩

/-- A change of the `objects` table: `N` allows new objects, `D` says which handles may be deleted, `I`
allows erasing everything. -/
inductive TMove (N : Obj → Prop) (I : Prop) (D : Nat → Prop) (hs : Handles) : ObjTable → ObjTable → Prop where
  | same (t : ObjTable) : TMove N I D hs t t
  | add {t t' : ObjTable} (u : Bytes) (o o' : Obj) (hn : N o') (ho : o'.getStr CKA_UNIQUE_ID = .ok u) (z : uidCount o.attrs ≤ 1)
      (hu : o.getStr CKA_UNIQUE_ID = .ok u) (h : storeObject t u o = .ok t') : TMove N I D hs t t'
  | upd {t t' : ObjTable} (n : Nat) (u : Bytes) (o : Obj) (hg : hs.get n = some u) (hr : rowsOf t u ≠ none)
      (z : uidCount o.attrs ≤ 1) (hu : o.getStr CKA_UNIQUE_ID = .ok u) (h : storeObject t u o = .ok t') :
      TMove N I D hs t t'
  | del {t : ObjTable} (n : Nat) (u : Bytes) (hg : hs.get n = some u) (hd : D n) :
      TMove N I D hs t (deleteObject t u)
  | clear {t : ObjTable} (hi : I) : TMove N I D hs t []

theorem TMove.ok {N : Obj → Prop} {I : Prop} {D : Nat → Prop} {hs : Handles} {t t' : ObjTable} (m : TMove N I D hs t t')
    (ok : TblOk t) : TblOk t' := by
  cases m with
  | same => exact ok
  | add u o o' hn ho z hu h => exact (store_inv ok z hu h).1
  | upd n u o hg hr z hu h => exact (store_inv ok z hu h).1
  | del n u hg hd => exact tblOk_delete ok u
  | clear hi => exact tblOk_nil

/-- Unless an object with it is added, an id that is not there does not appear. -/
theorem TMove.absent {N : Obj → Prop} {I : Prop} {D : Nat → Prop} {hs : Handles} {t t' : ObjTable} (m : TMove N I D hs t t')
    (ok : TblOk t) {u : Bytes} (hn : ∀ o, N o → o.getStr CKA_UNIQUE_ID ≠ .ok u) (h : rowsOf t u = none) : rowsOf t' u = none := by
  cases m with
  | same => exact h
  | add v o o' ho hu' z hu hst =>
    obtain ⟨_, rows, _, hx⟩ := store_inv ok z hu hst
    rw [hx]
    split
    · rename_i e; rw [e] at hu'; exact absurd hu' (hn _ ho)
    · exact h
  | upd n v o hg hr z hu hst =>
    obtain ⟨_, rows, _, hx⟩ := store_inv ok z hu hst
    rw [hx]
    split
    · rename_i e; rw [e] at hr; exact absurd h hr
    · exact h
  | del n v hg hd =>
    rw [rowsOf_delete ok]
    split
    · rfl
    · exact h
  | clear hi => rfl

theorem storeObj_move {e : Env} {db : Db} {o : Obj} {P : ObjTable → Prop} (h0 : P db.objs)
    (h1 : ∀ u t', o.getStr CKA_UNIQUE_ID = .ok u → storeObject db.objs u o = .ok t' → P t') :
    P (db.storeObj e o).2.objs := by
  unfold Db.storeObj
  split
  · exact h0
  · rename_i u hu
    split
    · exact h0
    · split
      · exact h0
      · rename_i t' ht
        exact h1 u t' hu ht

section
variable {k : Nat} {D : Nat → Prop} {N : Obj → Prop} {I : Prop}

theorem move_insert (e : Env) (o : Obj) (t : Token) (hz : Zero o) (hn : N o) :
    TMove N I D t.handles t.store.db.objs (t.insertObject C e k o).2.store.db.objs := by
  unfold Token.insertObject
  split
  · split
    · exact .same _
    · simp only
      rcases store_shape (C := C) e t.store t.handles o hz.handle with
        ⟨r, h⟩ | ⟨F, uid, x, hF, hu, hx, ⟨r, _, h⟩ | ⟨_, r, _, h⟩⟩
      · rw [h]; exact .same _
      · rw [h]; exact .same _
      · rw [h]
        simp only
        have ui := uid_notIn hF
        have zx : Zero x ∧ x.find CKA_UNIQUE_ID = o.find CKA_UNIQUE_ID := by
          split at hx
          · exact ⟨encryptLoop_zero hx hz, encryptLoop_find hx ui.1⟩
          · injection hx with hx; rw [← hx]; exact ⟨hz, rfl⟩
        refine storeObj_move (.same _) fun u t' hu' ht => ?_
        refine .add u _ o hn ?_ (zero_delAll zx.1).uid hu' ht
        have hf : (delAll x F.ephemeral).find CKA_UNIQUE_ID = o.find CKA_UNIQUE_ID := by
          rw [find_delAll, if_neg ui.2]; exact zx.2
        unfold Obj.getStr at hu' ⊢
        rw [← hf]; exact hu'
  · simp only
    repeat' split
    all_goals exact .same _

theorem move_update (e : Env) (n : Nat) (tm : Template) (t : Token) (ok : TblOk t.store.db.objs)
    (hu : ∀ c ∈ tm, c.typ ≠ CKA_UNIQUE_ID) :
    TMove N I D t.handles t.store.db.objs (t.store.update C e t.handles n tm).2.db.objs := by
  unfold Store.update
  split
  · exact .same _
  · rename_i uid hg
    split
    · exact .same _
    · rename_i o ho
      split
      · exact .same _
      · rename_i F hF
        extract_lets t'
        have ht' : ∀ tm', t' = .ok tm' → ∀ c ∈ tm', c.typ ≠ CKA_UNIQUE_ID := by
          intro tm' h c hc e
          simp only [t'] at h
          split at h
          · rcases updateEncrypt_typ h c hc with h | ⟨c', h1, h2⟩
            · rw [e] at h; exact (uid_notIn hF).1 h
            · exact hu c' h1 (h2.trans e)
          · injection h with h; subst h; exact hu c hc e
        clear_value t'
        split
        · exact .same _
        · rename_i tm' 
          have hc := ht' tm' rfl
          split
          · exact .same _
          · rename_i o' ho'
            obtain ⟨z, hf⟩ := fetchByUid_uid ok ho
            obtain ⟨r, hr, _⟩ := fetchByUid_ok ok ho
            simp only [true_or, if_true] at hf
            obtain ⟨z', hf'⟩ := setAllCk_keep ho' z hc
            simp only
            refine storeObj_move (.same _) fun u t' hu' ht => ?_
            have hu2 := hu'
            unfold Obj.getStr at hu2
            rw [find_delAll, if_neg (uid_notIn hF).2, hf', hf] at hu2
            have : u = uid := by
              exact toStr_val hu2
            subst this
            exact .upd n u _ hg (by rw [hr]; exact fun h => by cases h) (zero_delAll z').uid hu' ht

theorem move_destroy (e : Env) (n : Nat) (t : Token) (hd : D n) :
    TMove N I D t.handles t.store.db.objs (t.destroyObject C e n).2.store.db.objs := by
  unfold Token.destroyObject
  repeat' split
  all_goals first | exact .same _ | skip
  simp only [Store.remove]
  split
  · exact .same _
  · rename_i u hg
    simp only [Db.removeByUid]
    split
    · exact .same _
    · exact .del n u hg hd

theorem move_setAttrs (e : Env) (n : Nat) (tm : Template) (t : Token) (ok : TblOk t.store.db.objs) :
    TMove N I D t.handles t.store.db.objs (t.setObjectAttrs C e n tm).2.store.db.objs := by
  unfold Token.setObjectAttrs
  split
  · split <;> exact .same _
  split
  · exact .same _
  split
  · exact .same _
  split
  · exact .same _
  split
  · exact .same _
  split
  · exact .same _
  exact move_update _ _ _ _ ok (checkSet_noUid (by assumption) (by assumption))

theorem storeUser_objs (e : Env) (db : Db) (u : User) (a : AuthInfo) : (db.storeUser e u a).2.objs = db.objs := by
  unfold Db.storeUser
  repeat' split
  all_goals rfl

theorem authUser_objs (e : Env) (t : Token) (u : User) (pin : Bytes) (co : Bool) :
    (t.authUser C e u pin co).2.store.db.objs = t.store.db.objs := by
  have h : ∀ (s : Store), (s.authUser C e u pin co).2.2.db.objs = s.db.objs := by
    intro s
    unfold Store.authUser
    split
    · rfl
    · simp only
      repeat' split
      all_goals first | rfl | exact storeUser_objs ..
  unfold Token.authUser
  have := h t.store
  generalize t.store.authUser C e u pin co = p at this ⊢
  obtain ⟨r, f, st⟩ := p
  simp only at this ⊢
  cases r
  · exact this
  · simp only; split <;> exact this

theorem setPin_objs (e : Env) (t : Token) (who : Option User) (pin old : Bytes) :
    (t.setPin C e who pin old).2.store.db.objs = t.store.db.objs := by
  have h : ∀ (e : Env) (s : Store) (u : User), (s.setUserPin C e u pin).2.db.objs = s.db.objs := by
    intro e s u
    unfold Store.setUserPin
    split
    · rfl
    · exact storeUser_objs ..
  unfold Token.setPin
  extract_lets ut
  clear_value ut
  cases ut with
  | none => simp only; split <;> rfl
  | some u =>
    simp only
    have a := authUser_objs (C := C) (e.sub 0) t u old true
    generalize hq : (if old ≠ [] then t.authUser C (e.sub 0) u old true else ((.ok (), t) : Res Unit × Token)) = q
    have hq2 : q.2.store.db.objs = t.store.db.objs := by
      rw [← hq]; split
      · exact a
      · rfl
    obtain ⟨r, t1⟩ := q
    simp only at hq2 ⊢
    cases r with
    | error r => exact hq2
    | ok _ =>
      have b := h (e.sub 1) t1.store u
      simp only
      generalize t1.store.setUserPin C (e.sub 1) u pin = q at b ⊢
      obtain ⟨r, st⟩ := q
      cases r with
      | error r => exact b.trans hq2
      | ok _ => cases u <;> exact b.trans hq2

theorem login_objs (e : Env) (t : Token) (ut : Nat) (pin : Bytes) :
    (t.login C e ut pin).2.store.db.objs = t.store.db.objs := by
  unfold Token.login
  repeat' split
  all_goals first | rfl | exact authUser_objs ..

theorem logout_objs (e : Env) (t : Token) : (t.logout e).2.store.db.objs = t.store.db.objs := by
  have h : ∀ (s : Store) (u : User), (s.unauthUser e u).2.db.objs = s.db.objs := by
    intro s u
    unfold Store.unauthUser
    repeat' split
    all_goals rfl
  unfold Token.logout
  split
  · rfl
  · rename_i u _
    simp only
    have b := h t.clearPrivate.store u
    generalize t.clearPrivate.store.unauthUser e u = q at b ⊢
    obtain ⟨r, st⟩ := q
    cases r <;> exact b

theorem drop_objs (h : Nat) (t : Token) : (t.dropSessionObjects h).store = t.store := rfl

theorem fnSetPin_objs (e : Env) (s : Session) (t : Token) (old new : Bytes) :
    (fnSetPin C e s t old new).2.store.db.objs = t.store.db.objs := by
  unfold fnSetPin
  split
  · rfl
  split
  · rfl
  split
  · rfl
  split
  · exact setPin_objs ..
  · have a := login_objs (C := C) (e.sub 0) t CKU_USER old
    generalize t.login C (e.sub 0) CKU_USER old = p at a ⊢
    obtain ⟨r, t1⟩ := p
    cases r with
    | error r => exact a
    | ok _ =>
      simp only at a ⊢
      have c := setPin_objs (C := C) (e.sub 1) t1 none new old
      generalize t1.setPin C (e.sub 1) none new old = q at c ⊢
      obtain ⟨r, t2⟩ := q
      simp only at c ⊢
      have d := logout_objs (e.sub 2) t2
      generalize t2.logout (e.sub 2) = w at d ⊢
      obtain ⟨r', t3⟩ := w
      exact d.trans (c.trans a)

theorem act_move {a b : Token} (x : TAct C Z k D N a b) (ok : TblOk a.store.db.objs) :
    TMove N I D a.handles a.store.db.objs b.store.db.objs := by
  cases x with
  | insert e o t hz hn => exact move_insert e o _ hz hn
  | destroy e n t hd => exact move_destroy e n _ hd
  | setAttrs e n tm t => exact move_setAttrs e n tm _ ok
  | search e tm t => exact .same _
  | update e n tm t hl hu => exact move_update e n tm _ ok hu
  | initPin e pin t =>
    have : (fnInitPin C e a pin).2.store.db.objs = a.store.db.objs := by
      unfold fnInitPin
      repeat' split
      all_goals first | rfl | exact setPin_objs ..
    rw [this]; exact .same _
  | changePin e s old new t hp hd =>
    rw [fnSetPin_objs]; exact .same _

theorem builtins_store (e : Env) (t : Token) (cls ty : Nat) (l : List Nat) (n : Nat) (hl : t.logged = none) :
    (t.insertBuiltins C e cls ty l n).2.store = t.store ∧ (t.insertBuiltins C e cls ty l n).2.logged = none := by
  have one : ∀ (e : Env) (t : Token) (id : Nat), t.logged = none →
      (t.insertBuiltin C e cls ty id).2.store = t.store ∧ (t.insertBuiltin C e cls ty id).2.logged = none := by
    intro e t id hl
    have hl' : t.loggedIn = false := by unfold Token.loggedIn; rw [hl]; rfl
    unfold Token.insertBuiltin
    split
    · exact ⟨rfl, hl⟩
    · split
      · exact ⟨rfl, hl⟩
      · rename_i o _
        have : (t.insertObject C e 0 o).2.store = t.store ∧ (t.insertObject C e 0 o).2.logged = none := by
          unfold Token.insertObject
          split
          · rw [if_pos (by rw [hl']; rfl)]; exact ⟨rfl, hl⟩
          · simp only
            repeat' split
            all_goals exact ⟨rfl, hl⟩
        generalize t.insertObject C e 0 o = p at this ⊢
        obtain ⟨r, t1⟩ := p
        cases r <;> exact this
  induction l generalizing t n with
  | nil => exact ⟨rfl, hl⟩
  | cons id l ih =>
    unfold Token.insertBuiltins
    have a := one (e.sub n) t id hl
    generalize t.insertBuiltin C (e.sub n) cls ty id = p at a ⊢
    obtain ⟨r, t1⟩ := p
    cases r with
    | error r => exact a
    | ok _ =>
      have b := ih t1 (n + 1) a.2
      exact ⟨b.1.trans a.1, b.2⟩

theorem internal_store (e : Env) (t : Token) (hl : t.logged = none) : (t.internalInit C e).2.store = t.store := by
  unfold Token.internalInit
  have a := builtins_store (C := C) (e.sub 0) t CKO_PROFILE CKA_PROFILE_ID Token.profiles 0 hl
  generalize t.insertBuiltins C (e.sub 0) CKO_PROFILE CKA_PROFILE_ID Token.profiles 0 = p at a ⊢
  obtain ⟨r, t1⟩ := p
  cases r with
  | error r => exact a.1
  | ok _ => exact (builtins_store _ _ _ _ _ _ a.2).1.trans a.1

/-- A new token has the objects of its file. -/
theorem new_objs {e : Env} {db : Db} {cfg : TokCfg} {t : Token} (h : Token.new C e db cfg = .ok t) :
    t.store.db = db := by
  unfold Token.new at h
  extract_lets src t0 tf sf t' at h
  have h0 : t0.store.db = db ∧ t0.logged = none := ⟨rfl, rfl⟩
  clear_value t0
  have h1 : ∀ t1, t' = .ok t1 → t1.store.db = db ∧ t1.logged = none := by
    intro t1 h1
    simp only [t', tf, sf] at h1
    repeat' split at h1
    all_goals first | (cases h1; done) | (injection h1 with h1; rw [← h1]; exact h0)
  clear_value t'
  cases t' with
  | error r => cases h
  | ok t0 =>
    have b := h1 t0 rfl
    have a := internal_store (C := C) (e.sub 1) t0 b.2
    simp only at h
    generalize t0.internalInit C (e.sub 1) = p at a h
    obtain ⟨r, t1⟩ := p
    cases r with
    | error r => cases h
    | ok _ =>
      injection h with h; rw [← h]
      show t1.store.db = db
      rw [show t1.store = t0.store from a]; exact b.1

theorem reinit_objs (e : Env) (s : Store) :
    (s.reinit C e).2.db.objs = s.db.objs ∨ (s.reinit C e).2.db.objs = [] := by
  unfold Store.reinit
  unfold Db.reset
  cases (e.sub 0).fails with
  | some r => exact .inl rfl
  | none =>
    right
    simp only
    have k1 : ∀ (e : Env) (s : Store), (s.defaultSoPin C e).2.db.objs = s.db.objs := by
      intro e s
      unfold Store.defaultSoPin
      split
      · rfl
      · exact storeUser_objs ..
    have k2 : ∀ (e : Env) (s : Store), (s.defaultTokenInfo e).2.db.objs = s.db.objs := by
      intro e s
      unfold Store.defaultTokenInfo
      extract_lets info info1 info2
      clear_value info2
      split
      · rfl
      · have k : ∀ (e : Env) (db : Db) (i : TokInfo), (db.storeTokenInfo e i).2.objs = db.objs := by
          intro e db i
          unfold Db.storeTokenInfo
          split <;> rfl
        rename_i i _ _
        have := k (e.sub 1) s.db i
        clear_value i
        generalize s.db.storeTokenInfo (e.sub 1) i = w at this ⊢
        obtain ⟨r, db⟩ := w
        cases r <;> exact this
    split
    · rfl
    · generalize hs : ({ db := _, aci := _ } : Store) = s1
      have h1 : s1.db.objs = [] := by rw [← hs]
      clear hs
      have a := k1 (e.sub 2) s1
      generalize s1.defaultSoPin C (e.sub 2) = p at a ⊢
      obtain ⟨r, s2⟩ := p
      cases r with
      | error r => exact a.trans h1
      | ok _ =>
        have b := k2 (e.sub 3) s2
        simp only
        generalize s2.defaultTokenInfo (e.sub 3) = p at b ⊢
        obtain ⟨r, s3⟩ := p
        cases r with
        | error r => exact b.trans (a.trans h1)
        | ok info =>
          simp only
          split <;> exact b.trans (a.trans h1)

theorem initToken_objs (e : Env) (t : Token) (pin label : Bytes) :
    (t.initToken C e pin label).2.store.db.objs = t.store.db.objs ∨
      (t.initToken C e pin label).2.store.db.objs = [] := by
  unfold Token.initToken
  have a : (if t.isInitialized then t.authUser C (e.sub 0) .so pin true else (.ok (), t)).2.store.db.objs =
      t.store.db.objs := by
    split
    · exact authUser_objs ..
    · rfl
  generalize (if t.isInitialized then t.authUser C (e.sub 0) .so pin true else (.ok (), t)) = p at a ⊢
  obtain ⟨r, t1⟩ := p
  cases r with
  | error r => exact .inl a
  | ok _ =>
    simp only at a ⊢
    have q := reinit_objs (C := C) (e.sub 1) t1.store
    rw [a] at q
    generalize t1.store.reinit C (e.sub 1) = w at q ⊢
    obtain ⟨r, st⟩ := w
    simp only at q
    cases r with
    | error r => exact q
    | ok info =>
      simp only
      have b := setPin_objs (C := C) (e.sub 2)
        { info := t1.info, handles := Handles.new, store := st, sess := [], logged := none, cfg := t1.cfg }
        (some User.so) pin []
      have bl := (setPin_same (C := C) (e.sub 2)
        { info := t1.info, handles := Handles.new, store := st, sess := [], logged := none, cfg := t1.cfg }
        (some User.so) pin []).logged
      generalize Token.setPin C (e.sub 2) _ (some User.so) pin [] = w at b bl ⊢
      obtain ⟨r, t2⟩ := w
      simp only at b bl ⊢
      rw [← b] at q
      split
      · exact q
      · have k : ∀ (e : Env) (db : Db) (i : TokInfo), (db.storeTokenInfo e i).2.objs = db.objs := by
          intro e db i
          unfold Db.storeTokenInfo
          split <;> rfl
        generalize hi : ({ label := _, manufacturer := _, model := _, serial := _, flags := _ } : TokInfo) = i
        have q3 := k (e.sub 3) t2.store.db i
        generalize t2.store.db.storeTokenInfo (e.sub 3) i = w at q3 ⊢
        obtain ⟨r, db⟩ := w
        simp only at q3 ⊢
        rw [← q3] at q
        split
        · exact q
        · generalize hu : Store.unauthUser _ _ _ = w
          have q4 : w.2.db.objs = db.objs := by
            rw [← hu]
            unfold Store.unauthUser
            split <;> rfl
          obtain ⟨r, st⟩ := w
          simp only at q4 ⊢
          rw [← q4] at q
          split
          · exact q
          · rw [internal_store]
            · exact q
            · exact bl

theorem prim_move {a b : Token} (x : TPrim C k D N I W a b) (ok : TblOk a.store.db.objs) :
    TMove N I D a.handles a.store.db.objs b.store.db.objs := by
  cases x with
  | act x => exact act_move x ok
  | login e ut pin t => rw [login_objs]; exact .same _
  | logout e t hd => rw [logout_objs]; exact .same _
  | drop h t hd => exact .same _
  | initTok e pin label t hi =>
    rcases initToken_objs (C := C) e a pin label with h | h
    · rw [h]; exact .same _
    · rw [h]; exact .clear hi

theorem path_ok {a b : Token} (x : TPath C k D N I W a b) (ok : TblOk a.store.db.objs) : TblOk b.store.db.objs :=
  TPath.inv (P := fun t => TblOk t.store.db.objs) (fun _ _ x ok => (prim_move x ok).ok ok) x ok

/-- Without new objects, an id that is not stored does not get stored. -/
theorem path_absent {a b : Token} (x : TPath C k D N I W a b) (ok : TblOk a.store.db.objs) {u : Bytes}
    (hn : ∀ o, N o → o.getStr CKA_UNIQUE_ID ≠ .ok u)
    (h : rowsOf a.store.db.objs u = none) : rowsOf b.store.db.objs u = none :=
  (TPath.inv (P := fun t => TblOk t.store.db.objs ∧ rowsOf t.store.db.objs u = none)
    (fun _ _ x p => ⟨(prim_move x p.1).ok p.1, (prim_move x p.1).absent p.1 hn p.2⟩) x ⟨ok, h⟩).2

end

end Kry
