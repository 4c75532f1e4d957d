import Verif.Proofs.TblMove

/-!
# Objects that are not there do not come back
-/

namespace Kry
open Spec

theorem uid_nodef : allFactories (fun F => F.attrs.all fun f =>
    f.typ != CKA_UNIQUE_ID || !f.hasDefault) = true := by decide +kernel

theorem defaultsLoop_noUid {q : Nat} {fa : List FAttr} {o o' : Obj}
    (hf : ∀ f ∈ fa, f.typ = CKA_UNIQUE_ID → f.attr.typ = CKA_UNIQUE_ID → f.hasDefault = false)
    (hc : defaultsLoop q o fa = .ok o') (hn : o.find CKA_UNIQUE_ID = none) : o'.find CKA_UNIQUE_ID = none := by
  induction fa generalizing o with
  | nil => injection hc with hc; rw [← hc]; exact hn
  | cons f fa ih =>
    have hf' := fun g hg => hf g (List.mem_cons_of_mem _ hg)
    unfold defaultsLoop at hc
    split at hc
    · exact ih hf' hc hn
    · split at hc
      · rename_i hd
        refine ih hf' hc ?_
        rw [find_push, hn, Option.none_or]
        split
        · rename_i e
          have := hf f (List.mem_cons_self ..) e e
          rw [this] at hd; cases hd
        · rfl
      · split at hc
        · cases hc
        · exact ih hf' hc hn

/-- A built-in object has the stable unique id. -/
theorem builtin_uid {cls ty id : Nat} {F : Factory} {uid u : Bytes} {o : Obj} (hF : getFactory cls 0 = .ok F)
    (ht : ty ≠ CKA_UNIQUE_ID) (h : builtinCreate F ty id uid = .ok o) (hu : o.getStr CKA_UNIQUE_ID = .ok u) :
    u = uid := by
  unfold builtinCreate at h
  split at h
  · cases h
  · rename_i o1 h1
    injection h with h
    have hn : o1.find CKA_UNIQUE_ID = none := by
      unfold internalObjectCreate at h1
      split at h1
      · cases h1
      · rename_i o2 h2
        refine defaultsLoop_noUid ?_ h1 ?_
        · intro f hf e _
          have := allFactories_spec uid_nodef (getFactory_mem hF)
          rw [List.all_eq_true] at this
          have := this f hf
          simpa [e] using this
        · have hz : (Obj.new F.cls).find CKA_UNIQUE_ID = none := rfl
          unfold createLoop at h2
          split at h2
          · cases h2
          · split at h2
            · cases h2
            · extract_lets dup at h2
              clear_value dup
              split at h2
              · cases h2
              · split at h2
                · injection h2 with h2; rw [← h2]; exact hz
                · split at h2
                  · cases h2
                  · rename_i a ha
                    injection h2 with h2
                    rw [← h2, find_push, hz, Option.none_or, if_neg]
                    rw [fromCk_typ ha]; exact ht
    have hx : o.find CKA_UNIQUE_ID = some (Attr.ofString CKA_UNIQUE_ID uid) := by
      rw [← h]
      unfold Obj.generateUnique
      split
      · rename_i hc
        obtain ⟨a, ha, hb⟩ := List.any_eq_true.1 hc
        unfold Obj.find at hn
        rw [List.find?_eq_none] at hn
        exact absurd hb (hn a ha)
      · rw [find_push, hn]; rfl
    unfold Obj.getStr at hu
    rw [hx] at hu
    exact toStr_val hu

/-- Nothing in the handle table for a unique id. -/
def NoUid (h : Handles) (u : Bytes) : Prop := ∀ n, h.get n ≠ some u

theorem noUid_new (u : Bytes) : NoUid Handles.new u := fun n h => by cases h

theorem noUid_insert {h : Handles} {u v : Bytes} {n : Nat} (hn : NoUid h u) (hne : v ≠ u) :
    NoUid (h.insert n v).2 u := by
  unfold Handles.insert
  split
  · exact hn
  · intro m hm
    unfold Handles.get at hm
    simp only [AMap.get_append] at hm
    have := hn m
    unfold Handles.get at this
    cases hx : AMap.get h.map m with
    | some w =>
      rw [hx] at hm this
      exact this hm
    | none =>
      rw [hx] at hm
      simp only [AMap.get_cons] at hm
      split at hm
      · injection hm with hm; exact hne hm
      · cases hm

theorem noUid_sub {h h' : Handles} {u : Bytes} (hn : NoUid h u) (hs : ∀ n v, h'.get n = some v → h.get n = some v) :
    NoUid h' u := fun n hm => hn n (hs n u hm)

theorem noUid_bump {h : Handles} {u : Bytes} (hn : NoUid h u) : NoUid h.bump.2 u := hn

theorem noUid_removeAll {h : Handles} {u : Bytes} (l : List Nat) (hn : NoUid h u) :
    NoUid (l.foldl Handles.remove h) u := by
  intro m hm
  rw [get_removeAll] at hm
  split at hm
  · cases hm
  · exact hn m hm

/-- Handles given by a search go to the objects found. -/
theorem noUid_searchLoop {u : Bytes} (tm : Template) (l : List Obj) {h : Handles} (hn : NoUid h u)
    (hl : ∀ o ∈ l, o.getStr CKA_UNIQUE_ID ≠ .ok u) : NoUid (searchLoop tm l h).2 u := by
  induction l generalizing h with
  | nil => exact hn
  | cons o l ih =>
    have hl' := fun x hx => hl x (List.mem_cons_of_mem _ hx)
    unfold searchLoop
    extract_lets skip
    clear_value skip
    split
    · exact ih hn hl'
    · split
      · exact ih hn hl'
      · rename_i v hv
        split
        · exact ih hn hl'
        · split
          · have := ih hn hl'
            generalize searchLoop tm l h = q at this ⊢
            obtain ⟨r, h2⟩ := q
            cases r <;> exact this
          · have hne : v ≠ u := by
              intro e; exact hl o (List.mem_cons_self ..) (by rw [hv, e])
            have a := noUid_insert (n := h.bump.1) (noUid_bump hn) hne
            simp only
            generalize h.bump.2.insert h.bump.1 v = q at a ⊢
            obtain ⟨r, h2⟩ := q
            cases r with
            | error r => exact a
            | ok _ =>
              have := ih a hl'
              simp only at this ⊢
              generalize searchLoop tm l h2 = q at this ⊢
              obtain ⟨r, h3⟩ := q
              cases r <;> exact this

theorem rowsToObjects_mem {t : ObjTable} {l : List Obj} (h : rowsToObjects t = .ok l) :
    ∀ o ∈ l, ∃ g ∈ t, decodeRows (Obj.new CK_UNAVAILABLE_INFORMATION) g.2 = .ok o := by
  induction t generalizing l with
  | nil => injection h with h; rw [← h]; intro o ho; cases ho
  | cons g t ih =>
    unfold rowsToObjects at h
    split at h
    · cases h
    · rename_i o1 h1
      split at h
      · cases h
      · split at h
        · cases h
        · rename_i l' hl
          injection h with h
          rw [← h]
          intro o ho
          rcases List.mem_cons.1 ho with e | e
          · exact ⟨g, List.mem_cons_self .., by rw [e]; exact h1⟩
          · obtain ⟨g', hg, hd⟩ := ih hl o e
            exact ⟨g', List.mem_cons_of_mem _ hg, hd⟩

/-- What a database search returns is in the table, unfiltered. -/
theorem dbSearch_mem {e : Env} {db : Db} {tm : Template} {l : List Obj} (h : db.search e tm = .ok l) :
    ∀ o ∈ l, ∃ g ∈ db.objs, decodeRows (Obj.new CK_UNAVAILABLE_INFORMATION) g.2 = .ok o := by
  unfold Db.search at h
  split at h
  · cases h
  · split at h
    · cases h
    · intro o ho
      obtain ⟨g, hg, hd⟩ := rowsToObjects_mem h o ho
      exact ⟨g, (List.mem_filter.1 hg).1, hd⟩

/-- A decoded object's unique id is the one in its rows. -/
theorem decode_uid {rows : List (Nat × DbVal)} {o : Obj} {u : Bytes} (hn : (AMap.keys rows).Nodup)
    (hd : decodeRows (Obj.new CK_UNAVAILABLE_INFORMATION) rows = .ok o) (hu : o.getStr CKA_UNIQUE_ID = .ok u) :
    hasRow rows CKA_UNIQUE_ID (.text u) = true := by
  rw [hasRow_get hn]
  have := decodeRows_find hn hd CKA_UNIQUE_ID
  unfold Obj.getStr at hu
  cases hg : AMap.get rows CKA_UNIQUE_ID with
  | none =>
    rw [hg] at this
    simp only at this
    rw [this] at hu
    cases hu
  | some v =>
    rw [hg] at this
    simp only at this
    obtain ⟨a, ha, hf⟩ := this
    rw [hf] at hu
    unfold decodeRow at ha
    rw [uid_kind] at ha
    simp only at ha
    split at ha
    · injection ha with ha
      simp only at hu
      rw [← ha] at hu
      rw [toStr_val hu]; rfl
    · cases ha

theorem noUid_search {e : Env} {s : Store} {h : Handles} {tm : Template} {u : Bytes} (ok : TblOk s.db.objs)
    (hr : rowsOf s.db.objs u = none) (hn : NoUid h u) : NoUid (s.search e h tm).2 u := by
  unfold Store.search
  split
  · exact hn
  · rename_i l hl
    refine noUid_searchLoop tm l hn fun o ho hu => ?_
    obtain ⟨g, hg, hd⟩ := dbSearch_mem hl o ho
    have := decode_uid (ok.rows g hg) hd hu
    rw [rowsOf_none.1 hr g hg] at this
    cases this

variable {C : Crypto}

theorem noUid_insertObject {t : Token} (e : Env) (k : Nat) {o : Obj} {u : Bytes} (hz : Zero o)
    (hne : ∀ v, o.getStr CKA_UNIQUE_ID = .ok v → v ≠ u) (hn : NoUid t.handles u) :
    NoUid (t.insertObject C e k o).2.handles u := by
  unfold Token.insertObject
  split
  · split
    · exact hn
    · simp only
      rcases store_shape (C := C) e t.store t.handles o hz.handle with
        ⟨r, h⟩ | ⟨F, uid, x, _, hu, hx, ⟨r, _, h⟩ | ⟨_, r, _, h⟩⟩
      · rw [h]; exact hn
      · rw [h]; exact noUid_insert (noUid_bump hn) (hne _ hu)
      · rw [h]; exact noUid_insert (noUid_bump hn) (hne _ hu)
  · simp only
    split
    · exact noUid_bump hn
    · rename_i v hv
      have a := noUid_insert (n := t.handles.bump.1) (noUid_bump hn) (hne v hv)
      generalize t.handles.bump.2.insert t.handles.bump.1 v = q at a ⊢
      obtain ⟨r, h2⟩ := q
      cases r <;> exact a

theorem noUid_builtins {e : Env} {t : Token} {cls ty : Nat} {l : List Nat} {n : Nat} {u : Bytes}
    (ht : ty ≠ CKA_UNIQUE_ID) (hst : ∀ cls id, u ≠ Token.stableUid cls id) (hn : NoUid t.handles u) :
    NoUid (t.insertBuiltins C e cls ty l n).2.handles u := by
  have one : ∀ (e : Env) (t : Token) (id : Nat), NoUid t.handles u →
      NoUid (t.insertBuiltin C e cls ty id).2.handles u := by
    intro e t id hn
    unfold Token.insertBuiltin
    split
    · exact hn
    · rename_i F hF
      split
      · exact hn
      · rename_i o ho
        have hz : Zero o := by
          unfold builtinCreate at ho
          split at ho
          · cases ho
          · injection ho with ho
            rw [← ho]
            exact zero_generateUnique (zero_internal (by assumption))
        have hne : ∀ v, o.getStr CKA_UNIQUE_ID = .ok v → v ≠ u := by
          intro v hv e
          have := builtin_uid hF ht ho hv
          exact hst cls id (by rw [← e]; exact this)
        have := noUid_insertObject (C := C) e 0 hz hne hn
        generalize t.insertObject C e 0 o = p at this ⊢
        obtain ⟨r, t1⟩ := p
        cases r <;> exact this
  induction l generalizing t n with
  | nil => exact hn
  | cons id l ih =>
    unfold Token.insertBuiltins
    have a := one (e.sub n) t id hn
    generalize t.insertBuiltin C (e.sub n) cls ty id = p at a ⊢
    obtain ⟨r, t1⟩ := p
    cases r with
    | error r => exact a
    | ok _ => exact ih a

theorem noUid_internal {e : Env} {t : Token} {u : Bytes} (hst : ∀ cls id, u ≠ Token.stableUid cls id)
    (hn : NoUid t.handles u) : NoUid (t.internalInit C e).2.handles u := by
  unfold Token.internalInit
  have a := noUid_builtins (C := C) (e := e.sub 0) (cls := CKO_PROFILE) (ty := CKA_PROFILE_ID)
    (l := Token.profiles) (n := 0) (by decide) hst hn
  generalize t.insertBuiltins C (e.sub 0) CKO_PROFILE CKA_PROFILE_ID Token.profiles 0 = p at a ⊢
  obtain ⟨r, t1⟩ := p
  cases r with
  | error r => exact a
  | ok _ => exact noUid_builtins (by decide) hst a

theorem noUid_token {e : Env} {db : Db} {cfg : TokCfg} {t : Token} {u : Bytes}
    (hst : ∀ cls id, u ≠ Token.stableUid cls id) (h : Token.new C e db cfg = .ok t) : NoUid t.handles u := by
  unfold Token.new at h
  extract_lets src t0 tf sf t' at h
  have h0 : t0.handles = Handles.new := rfl
  clear_value t0
  have h1 : ∀ t1, t' = .ok t1 → t1.handles = Handles.new := by
    intro t1 h1
    simp only [t', tf, sf] at h1
    repeat' split at h1
    all_goals first | (cases h1; done) | (injection h1 with h1; rw [← h1]; exact h0)
  clear_value t'
  cases t' with
  | error r => cases h
  | ok t0 =>
    have a := noUid_internal (C := C) (e := e.sub 1) (t := t0) hst (by rw [h1 t0 rfl]; exact noUid_new u)
    simp only at h
    generalize t0.internalInit C (e.sub 1) = p at a h
    obtain ⟨r, t1⟩ := p
    cases r with
    | error r => cases h
    | ok _ => injection h with h; rw [← h]; exact a

theorem noUid_initToken {e : Env} {t : Token} {pin label : Bytes} {u : Bytes}
    (hst : ∀ cls id, u ≠ Token.stableUid cls id) (hn : NoUid t.handles u) :
    NoUid (t.initToken C e pin label).2.handles u := by
  unfold Token.initToken
  have a : (if t.isInitialized then t.authUser C (e.sub 0) .so pin true else (.ok (), t)).2.handles = t.handles := by
    split
    · exact (authUser_hs _ _ _ _ _).2
    · rfl
  generalize (if t.isInitialized then t.authUser C (e.sub 0) .so pin true else (.ok (), t)) = p at a ⊢
  obtain ⟨r, t1⟩ := p
  cases r with
  | error r => show NoUid t1.handles u; rw [show t1.handles = t.handles from a]; exact hn
  | ok _ =>
    simp only
    generalize t1.store.reinit C (e.sub 1) = q
    obtain ⟨r, st⟩ := q
    cases r with
    | error r => exact noUid_new u
    | ok info =>
      simp only
      have b := (setPin_hs (C := C) (e.sub 2)
        { info := t1.info, handles := Handles.new, store := st, sess := [], logged := none, cfg := t1.cfg }
        (some User.so) pin []).2
      generalize Token.setPin C (e.sub 2) _ (some User.so) pin [] = w at b ⊢
      obtain ⟨r, t2⟩ := w
      have z2 : NoUid t2.handles u := by
        rw [show t2.handles = Handles.new from b]; exact noUid_new u
      simp only
      split
      · exact z2
      · split
        · exact z2
        · split
          · exact z2
          · refine noUid_internal hst ?_
            exact z2

/-- Removing never adds. -/
theorem sub_removeAll (l : List Nat) (h : Handles) (n : Nat) (v : Bytes)
    (hg : (l.foldl Handles.remove h).get n = some v) : h.get n = some v := by
  rw [get_removeAll] at hg
  split at hg
  · cases hg
  · exact hg

theorem logout_hsub (e : Env) (t : Token) (n : Nat) (v : Bytes) (h : (t.logout e).2.handles.get n = some v) :
    t.handles.get n = some v := by
  unfold Token.logout at h
  split at h
  · exact h
  · have : (t.clearPrivate).handles.get n = some v := by
      simp only at h
      split at h <;> exact h
    exact sub_removeAll _ _ _ _ this

section
variable {k : Nat} {D : Nat → Prop} {N : Obj → Prop} {I : Prop}

theorem act_noUid {a b : Token} {u : Bytes} (x : TAct C Z k D N a b) (ok : TblOk a.store.db.objs)
    (hN : ∀ o, N o → o.getStr CKA_UNIQUE_ID ≠ .ok u)
    (hr : rowsOf a.store.db.objs u = none) (hn : NoUid a.handles u) : NoUid b.handles u := by
  cases x with
  | insert e o t hz h => exact noUid_insertObject e k hz (fun v hv e => hN o h (by rw [hv, e])) hn
  | destroy e n t hd =>
    unfold Token.destroyObject
    repeat' split
    all_goals first
      | exact hn
      | exact noUid_removeAll [n] hn
  | setAttrs e n tm t =>
    unfold Token.setObjectAttrs
    repeat' split
    all_goals exact hn
  | search e tm t => exact noUid_search ok hr hn
  | update e n tm t hl hu => exact hn
  | initPin e pin t =>
    have : (fnInitPin C e a pin).2.handles = a.handles := by
      unfold fnInitPin
      repeat' split
      all_goals first | rfl | exact (setPin_hs _ _ _ _ _).2
    rw [this]; exact hn
  | changePin e s old new t hp hd =>
    unfold fnSetPin
    split
    · exact hn
    split
    · exact hn
    split
    · exact hn
    split
    · rw [(setPin_hs _ _ _ _ _).2]; exact hn
    · have a' := (login_hs (C := C) (e.sub 0) a CKU_USER old).2
      generalize a.login C (e.sub 0) CKU_USER old = p at a' ⊢
      obtain ⟨r, t1⟩ := p
      cases r with
      | error r => show NoUid t1.handles u; rw [show t1.handles = a.handles from a']; exact hn
      | ok _ =>
        simp only at a' ⊢
        have c := (setPin_hs (C := C) (e.sub 1) t1 none new old).2
        generalize t1.setPin C (e.sub 1) none new old = q at c ⊢
        obtain ⟨r, t2⟩ := q
        simp only at c ⊢
        have d := logout_hsub (e.sub 2) t2
        generalize t2.logout (e.sub 2) = w at d ⊢
        obtain ⟨r', t3⟩ := w
        refine noUid_sub ?_ d
        rw [c, a']; exact hn

theorem prim_noUid {a b : Token} {u : Bytes} (x : TPrim C k D N I W a b) (ok : TblOk a.store.db.objs)
    (hN : ∀ o, N o → o.getStr CKA_UNIQUE_ID ≠ .ok u)
    (hst : ∀ cls id, u ≠ Token.stableUid cls id)
    (hr : rowsOf a.store.db.objs u = none) (hn : NoUid a.handles u) : NoUid b.handles u := by
  cases x with
  | act x => exact act_noUid x ok hN hr hn
  | login e ut pin t => rw [(login_hs _ _ _ _).2]; exact hn
  | logout e t hd => exact noUid_sub hn (logout_hsub e a)
  | drop h t hd => exact noUid_removeAll _ hn
  | initTok e pin label t hi => exact noUid_initToken hst hn

/-- Nothing of a unique id in a token. -/
def Clean (u : Bytes) (t : Token) : Prop :=
  TblOk t.store.db.objs ∧ rowsOf t.store.db.objs u = none ∧ NoUid t.handles u

theorem path_clean {a b : Token} {u : Bytes} (x : TPath C k D N I W a b)
    (hN : ∀ o, N o → o.getStr CKA_UNIQUE_ID ≠ .ok u)
    (hst : ∀ cls id, u ≠ Token.stableUid cls id) (h : Clean u a) : Clean u b :=
  TPath.inv (P := Clean u)
    (fun _ _ x p => ⟨(prim_move x p.1).ok p.1, (prim_move x p.1).absent p.1 hN p.2.1,
      prim_noUid x p.1 hN hst p.2.1 p.2.2⟩) x h

end

/-! ## The machine -/

/-- Every table is well formed, also those on disk. -/
structure TInv (s : St) : Prop where
  slots : ∀ i sl, AMap.get s.slots i = some sl → TblOk sl.token.store.db.objs
  disks : ∀ i d, AMap.get s.disks i = some d → TblOk d.objs

theorem get_files (s : St) (i : Nat) (hn : (AMap.keys s.slots).Nodup) :
    AMap.get s.files i = match AMap.get s.slots i with
      | some sl => some sl.token.store.db
      | none => AMap.get s.disks i := by
  unfold St.files
  generalize s.slots = l at hn
  generalize s.disks = d
  induction l generalizing d with
  | nil => rfl
  | cons p l ih =>
    obtain ⟨j, sl⟩ := p
    rw [List.foldl_cons, ih (List.nodup_cons.1 hn).2]
    rw [AMap.get_cons]
    by_cases e : j = i
    · subst e
      rw [if_pos rfl, AMap.get_eq_none.2 (List.nodup_cons.1 hn).1]
      simp only [AMap.get_insert, if_pos]
    · rw [if_neg e]
      cases AMap.get l i with
      | some x => rfl
      | none => simp only [AMap.get_insert, if_neg e]

section
variable (M : Mechs) (O : Oracle)

/-- One step keeps the tables well formed. -/
theorem tinv_step (e : Env) (s : St) (c : Call) (hi : Inv s) (ht : TInv s) : TInv (step M C O e s c).2 := by
  have fin : TInv ⟨[], [], 0, s.files⟩ := by
    refine ⟨fun i sl h => (by cases h), fun i d h => ?_⟩
    have h : AMap.get s.files i = some d := h
    rw [get_files s i hi.slotsND] at h
    cases hs : AMap.get s.slots i with
    | some sl => rw [hs] at h; injection h with h; rw [← h]; exact ht.slots i sl hs
    | none => rw [hs] at h; exact ht.disks i d h
  by_cases h1 : c = .finalize
  · subst h1
    simp only [step, fnFinalize]
    split
    · exact ht
    · exact fin
  by_cases h2 : c = .crash
  · subst h2; exact fin
  refine ⟨fun i sl' hs' => ?_, fun i d hd => ?_⟩
  · cases hs : AMap.get s.slots i with
    | some sl =>
      obtain ⟨sl2, hs2, p⟩ := step_path (M := M) (O := O) (e := e) hi hs h1 h2
      rw [hs2] at hs'; injection hs' with hs'; subst hs'
      exact path_ok p (ht.slots i sl hs)
    | none =>
      obtain ⟨e', cfg, conf, _, _, _, hnew⟩ := step_new hs hs'
      rw [new_objs hnew]
      cases hd : AMap.get s.disks i with
      | some d => exact ht.disks i d hd
      | none => exact tblOk_nil
  · rw [step_disks h1 h2] at hd
    exact ht.disks i d hd

theorem tinv_run (tr : Trace) (s : St) (hi : Inv s) (ht : TInv s) : TInv (run M C O s tr) := by
  induction tr generalizing s with
  | nil => exact ht
  | cons p tr ih => exact ih _ (inv_step M O p.1 s p.2 hi) (tinv_step M O p.1 s p.2 hi ht)

theorem tinv_init {d : List (Nat × Db)} (h : ∀ p ∈ d, TblOk p.2.objs) : TInv (St.init d) :=
  ⟨fun i sl h => (by cases h), fun i x hx => h (i, x) (AMap.get_mem hx)⟩

theorem tinv_reach {d : List (Nat × Db)} (h : ∀ p ∈ d, TblOk p.2.objs) (tr : Trace) :
    TInv (run M C O (St.init d) tr) := tinv_run M O tr _ (inv_empty d 0) (tinv_init h)

/-- Nothing of a unique id is left in slot `i`. -/
def Gone (s : St) (i : Nat) (u : Bytes) : Prop :=
  match AMap.get s.slots i with
  | some sl => rowsOf sl.token.store.db.objs u = none ∧ NoUid sl.token.handles u
  | none => ∀ d, AMap.get s.disks i = some d → rowsOf d.objs u = none

theorem gone_step (e : Env) (s : St) (c : Call) (i : Nat) (u : Bytes) (hi : Inv s) (ht : TInv s)
    (hst : ∀ cls id, u ≠ Token.stableUid cls id)
    (hc : ∀ sl o, AMap.get s.slots i = some sl → MadeBy M C O e sl c o → o.getStr CKA_UNIQUE_ID ≠ .ok u) (hg : Gone s i u) :
    Gone (step M C O e s c).2 i u := by
  have fin : Gone ⟨[], [], 0, s.files⟩ i u := by
    intro d hd
    have hd : AMap.get s.files i = some d := hd
    rw [get_files s i hi.slotsND] at hd
    unfold Gone at hg
    cases hs : AMap.get s.slots i with
    | some sl =>
      rw [hs] at hg hd
      injection hd with hd
      rw [← hd]; exact hg.1
    | none =>
      rw [hs] at hg hd
      exact hg d hd
  by_cases h1 : c = .finalize
  · subst h1
    simp only [step, fnFinalize]
    split
    · exact hg
    · exact fin
  by_cases h2 : c = .crash
  · subst h2; exact fin
  unfold Gone at hg ⊢
  cases hs : AMap.get s.slots i with
  | some sl =>
    rw [hs] at hg
    obtain ⟨sl2, hs2, p⟩ := step_path (M := M) (O := O) (e := e) hi hs h1 h2
    rw [hs2]
    have := path_clean p (fun o m => hc sl o hs m) hst ⟨ht.slots i sl hs, hg.1, hg.2⟩
    exact ⟨this.2.1, this.2.2⟩
  | none =>
    rw [hs] at hg
    cases hs' : AMap.get (step M C O e s c).2.slots i with
    | none =>
      simp only
      rw [step_disks h1 h2]
      exact hg
    | some sl =>
      obtain ⟨e', cfg, conf, _, _, _, hnew⟩ := step_new hs hs'
      refine ⟨?_, noUid_token hst hnew⟩
      rw [new_objs hnew]
      cases hd : AMap.get s.disks i with
      | some d => exact hg d hd
      | none => rfl

theorem gone_run (tr : Trace) (s : St) (i : Nat) (u : Bytes) (hi : Inv s) (ht : TInv s)
    (hst : ∀ cls id, u ≠ Token.stableUid cls id)
    (hc : ∀ p ∈ tr, ∀ sl o, MadeBy M C O p.1 sl p.2 o → o.getStr CKA_UNIQUE_ID ≠ .ok u) (hg : Gone s i u) :
    Gone (run M C O s tr) i u := by
  induction tr generalizing s with
  | nil => exact hg
  | cons p tr ih =>
    exact ih _ (inv_step M O p.1 s p.2 hi) (tinv_step M O p.1 s p.2 hi ht)
      (fun q hq => hc q (List.mem_cons_of_mem _ hq))
      (gone_step M O p.1 s p.2 i u hi ht hst (fun sl o _ m => hc p (List.mem_cons_self ..) sl o m) hg)

end

end Kry
