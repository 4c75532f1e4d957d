import Verif.Proofs.Sticky
import Verif.Proofs.Ids

/-!
# One-way attributes of stored objects

The row of a one-way attribute of the object with a given unique id stays where it is, across restarts and crashes,
until the object is removed.
-/

namespace Kry
open Spec

/-- The row is not there or does not say the other value. -/
def RowHolds (ty : Nat) (v : Bool) (u : Bytes) (t : ObjTable) : Prop :=
  ∀ r w, rowsOf t u = some r → AMap.get r ty = some w → decodeRow ty w ≠ .ok (Attr.ofBool ty (!v))

section
variable {C : Crypto} {k : Nat} {D : Nat → Prop} {N : Obj → Prop} {I : Prop} {ty : Nat} {v : Bool} {u : Bytes}

theorem cfg_builtins {e : Env} {t : Token} {cls ty : Nat} {l : List Nat} {n : Nat} :
    (t.insertBuiltins C e cls ty l n).2.cfg = t.cfg := by
  induction l generalizing t n with
  | nil => rfl
  | cons id l ih =>
    unfold Token.insertBuiltins
    have a : (t.insertBuiltin C (e.sub n) cls ty id).2.cfg = t.cfg := by
      unfold Token.insertBuiltin
      split
      · rfl
      · split
        · rfl
        · rename_i o _
          have := (insertObject_same (C := C) (e.sub n) t 0 o).cfg
          generalize t.insertObject C (e.sub n) 0 o = p at this ⊢
          obtain ⟨r, t1⟩ := p
          cases r <;> exact this
    generalize t.insertBuiltin C (e.sub n) cls ty id = p at a ⊢
    obtain ⟨r, t1⟩ := p
    cases r with
    | error r => exact a
    | ok _ => exact ih.trans a

theorem cfg_internal {e : Env} {t : Token} : (t.internalInit C e).2.cfg = t.cfg := by
  unfold Token.internalInit
  have a := cfg_builtins (C := C) (e := e.sub 0) (t := t) (cls := CKO_PROFILE) (ty := CKA_PROFILE_ID)
    (l := Token.profiles) (n := 0)
  generalize t.insertBuiltins C (e.sub 0) CKO_PROFILE CKA_PROFILE_ID Token.profiles 0 = p at a ⊢
  obtain ⟨r, t1⟩ := p
  cases r with
  | error r => exact a
  | ok _ => exact cfg_builtins.trans a

theorem cfg_new {e : Env} {db : Db} {cfg : TokCfg} {t : Token} (h : Token.new C e db cfg = .ok t) : t.cfg = cfg := by
  unfold Token.new at h
  extract_lets src t0 tf sf t' at h
  clear_value t'
  cases t' with
  | error r => cases h
  | ok t0 =>
    simp only at h
    generalize t0.internalInit C (e.sub 1) = p at h
    obtain ⟨r, t1⟩ := p
    cases r with
    | error r => cases h
    | ok _ => injection h with h; rw [← h]

theorem cfg_initToken {e : Env} {t : Token} {pin label : Bytes} : (t.initToken C e pin label).2.cfg = t.cfg := by
  unfold Token.initToken
  have a : (if t.isInitialized then t.authUser C (e.sub 0) .so pin true else (.ok (), t)).2.cfg = t.cfg := by
    split
    · exact (authUser_sameI _ _ _ _ _).cfg
    · rfl
  generalize (if t.isInitialized then t.authUser C (e.sub 0) .so pin true else (.ok (), t)) = p at a ⊢
  obtain ⟨r, t1⟩ := p
  cases r with
  | error r => exact a
  | ok _ =>
    simp only
    generalize t1.store.reinit C (e.sub 1) = q
    obtain ⟨r, st⟩ := q
    cases r with
    | error r => exact a
    | ok info =>
      simp only
      have b := (setPin_same (C := C) (e.sub 2)
        { info := t1.info, handles := Handles.new, store := st, sess := [], logged := none, cfg := t1.cfg }
        (some User.so) pin []).cfg
      generalize Token.setPin C (e.sub 2) _ (some User.so) pin [] = w at b ⊢
      obtain ⟨r, t2⟩ := w
      have z2 : t2.cfg = t.cfg := b.trans a
      simp only
      split
      · exact z2
      · split
        · exact z2
        · split
          · exact z2
          · exact cfg_internal.trans z2

theorem prim_cfg {a b : Token} (x : TPrim C k D N I W a b) : b.cfg = a.cfg := by
  cases x with
  | act x => exact (act_same x).cfg
  | login e ut pin t => exact (login_sameI _ _ _ _).cfg
  | logout e t hd => exact (logout_sameI _ _).cfg
  | drop h t hd => rfl
  | initTok e pin label t hi => exact cfg_initToken

theorem rows_setAttrs (w : OneWay ty v) {a : Token} (e : Env) (m : Nat) (tm : Template) (ok : TblOk a.store.db.objs)
    (h : RowHolds ty v u a.store.db.objs) : RowHolds ty v u (a.setObjectAttrs C e m tm).2.store.db.objs := by
  unfold Token.setObjectAttrs
  split
  · split
    · exact h
    · exact h
  · split
    · exact h
    split
    · exact h
    split
    · exact h
    rename_i F hF
    split
    · exact h
    split
    · exact h
    rename_i hck
    have hno := checkSet_noUid hF hck
    by_cases hg : a.handles.get m = some u
    · exact update_row w.kind w.cls w.plain ok hno (w.set hF hck) hg h
    · rcases update_store (C := C) (e.sub 1) a.store a.handles m tm ok hno with
        ⟨h1, _⟩ | ⟨u', o, F, tm', o1, t', hg', hf, hF, htm, ho, z, hu', hst, h1⟩
      · simp only [h1]; exact h
      · simp only [h1]
        obtain ⟨_, rows, _, hr⟩ := store_inv ok z hu' hst
        intro r x hrr
        rw [hr, if_neg (by intro he; rw [he] at hg'; exact hg hg')] at hrr
        exact h r x hrr

theorem rows_insert {a : Token} (e : Env) {o : Obj} (hz : Zero o) (hne : o.getStr CKA_UNIQUE_ID ≠ .ok u)
    (ok : TblOk a.store.db.objs) (h : RowHolds ty v u a.store.db.objs) :
    RowHolds ty v u (a.insertObject C e k o).2.store.db.objs := by
  have : rowsOf (a.insertObject C e k o).2.store.db.objs u = rowsOf a.store.db.objs u := by
    by_cases ht : o.isToken = true
    · unfold Token.insertObject
      rw [if_pos ht]
      split
      · rfl
      · rcases store_shape (C := C) e a.store a.handles o hz.handle with
          ⟨r, h'⟩ | ⟨F, uid, x, hF, huid, hx, ⟨r, _, h'⟩ | ⟨hins, r, _, h'⟩⟩
        · simp only [h']
        · simp only [h']
        · simp only [h']
          have hne : uid ≠ u := by
            intro he
            subst he
            exact hne huid
          have hxu : x.find CKA_UNIQUE_ID = o.find CKA_UNIQUE_ID ∧ Zero x := by
            split at hx
            · exact ⟨encryptLoop_find hx (uid_notIn hF).1, encryptLoop_zero hx hz⟩
            · injection hx with hx
              rw [← hx]; exact ⟨rfl, hz⟩
          refine storeObj_move (P := fun t' => rowsOf t' u = rowsOf a.store.db.objs u) rfl ?_
          intro u' t' hu' hst
          have hzd := zero_delAll (l := F.ephemeral) hxu.2
          have : u' = uid := by
            unfold Obj.getStr at hu' huid
            rw [find_delAll, if_neg (uid_notIn hF).2, hxu.1] at hu'
            rw [hu'] at huid
            injection huid
          subst this
          obtain ⟨_, rows, _, hr⟩ := store_inv ok hzd.uid hu' hst
          rw [hr, if_neg hne]
    · rw [(insert_sess (C := C) a e k o).2 (by simpa using ht)]
  intro r x hr
  rw [this] at hr
  exact h r x hr

theorem rows_prim (w : OneWay ty v) {a b : Token} (x : TPrim C k D N I W a b) (ok : TblOk a.store.db.objs)
    (hN : ∀ o, N o → o.getStr CKA_UNIQUE_ID ≠ .ok u) (dd : a.cfg.dedup = none)
    (h : RowHolds ty v u a.store.db.objs) : RowHolds ty v u b.store.db.objs := by
  cases x with
  | act x =>
    cases x with
    | insert e o t hz hn => exact rows_insert e hz (hN o hn) ok h
    | destroy e m t hd =>
      unfold Token.destroyObject
      split
      · split <;> exact h
      · split
        · exact h
        · split
          · exact h
          · simp only [Store.remove]
            split
            · exact h
            · unfold Db.removeByUid
              split
              · exact h
              · intro r x hr
                simp only at hr
                rw [rowsOf_delete ok] at hr
                split at hr
                · cases hr
                · exact h r x hr
    | setAttrs e m tm => exact rows_setAttrs w e m tm ok h
    | search e tm => exact h
    | update e m tm t hl hu hdd => exact absurd dd hdd
    | initPin e pin =>
      unfold fnInitPin
      split
      · exact h
      · simp only [setPin_objs]; exact h
    | changePin e s old new t hp hd =>
      have : (fnSetPin C e s a old new).2.store.db.objs = a.store.db.objs := by
        unfold fnSetPin
        split
        · rfl
        split
        · rfl
        split
        · rfl
        split
        · simp only [setPin_objs]
        · have x := login_objs (C := C) (e.sub 0) a CKU_USER old
          generalize a.login C (e.sub 0) CKU_USER old = p at x ⊢
          obtain ⟨r, t1⟩ := p
          cases r with
          | error r => exact x
          | ok _ =>
            simp only at x ⊢
            have y := setPin_objs (C := C) (e.sub 1) t1 none new old
            generalize t1.setPin C (e.sub 1) none new old = q at y ⊢
            obtain ⟨r, t2⟩ := q
            simp only at y ⊢
            have z := logout_objs (e.sub 2) t2
            generalize t2.logout (e.sub 2) = c at z ⊢
            obtain ⟨r', t3⟩ := c
            exact z.trans (y.trans x)
      rw [this]; exact h
  | login e ut pin t => rw [login_objs]; exact h
  | logout e t hd => rw [logout_objs]; exact h
  | drop n t hd => exact h
  | initTok e pin label t hi =>
    rcases initToken_objs (C := C) e a pin label with h1 | h1
    · rw [h1]; exact h
    · rw [h1]; intro r x hr; cases hr

/-- What is known about a token. -/
structure Lasts (ty : Nat) (v : Bool) (u : Bytes) (t : Token) : Prop where
  tbl : TblOk t.store.db.objs
  dd : t.cfg.dedup = none
  row : RowHolds ty v u t.store.db.objs

theorem lasts_path (w : OneWay ty v) {a b : Token} (x : TPath C k D N I W a b)
    (hN : ∀ o, N o → o.getStr CKA_UNIQUE_ID ≠ .ok u) (h : Lasts ty v u a) : Lasts ty v u b :=
  TPath.inv (P := Lasts ty v u) (fun _ _ x p => ⟨(prim_move x p.tbl).ok p.tbl, by rw [prim_cfg x]; exact p.dd,
    rows_prim w x p.tbl hN p.dd p.row⟩) x h

end

/-! ## The machine -/

/-- The call does not start the library with merging of duplicates. -/
def Spec.noMerge : Call → Prop
  | .initialize conf => ∀ p ∈ conf, p.2.dedup = none
  | _ => True

variable {M : Mechs} {C : Crypto} {O : Oracle}

/-- In slot `i`, loaded or not. -/
def Lasting (ty : Nat) (v : Bool) (i : Nat) (u : Bytes) (s : St) : Prop :=
  match AMap.get s.slots i with
  | some sl => Lasts ty v u sl.token
  | none => ∀ d, AMap.get s.disks i = some d → RowHolds ty v u d.objs

theorem lasting_step {ty : Nat} {v : Bool} (w : OneWay ty v) (e : Env) (s : St) (c : Call) (i : Nat) (u : Bytes) (hi : Inv s)
    (ht : TInv s) (hm : noMerge c)
    (hc : ∀ sl o, AMap.get s.slots i = some sl → MadeBy M C O e sl c o → o.getStr CKA_UNIQUE_ID ≠ .ok u)
    (hg : Lasting ty v i u s) : Lasting ty v i u (step M C O e s c).2 := by
  have fin : Lasting ty v i u ⟨[], [], 0, s.files⟩ := by
    intro d hd
    have hd : AMap.get s.files i = some d := hd
    rw [get_files s i hi.slotsND] at hd
    unfold Lasting at hg
    cases hs : AMap.get s.slots i with
    | some sl =>
      rw [hs] at hg hd
      injection hd with hd
      rw [← hd]; exact hg.row
    | none =>
      rw [hs] at hg hd
      exact hg d hd
  by_cases h1 : c = .finalize
  · subst h1
    simp only [step, fnFinalize]
    split
    · exact hg
    · exact fin
  by_cases h2 : c = .crash
  · subst h2; exact fin
  unfold Lasting at hg ⊢
  cases hs : AMap.get s.slots i with
  | some sl =>
    rw [hs] at hg
    obtain ⟨sl2, hs2, p⟩ := step_path (M := M) (O := O) (e := e) hi hs h1 h2
    rw [hs2]
    exact lasts_path w p (fun o m => hc sl o hs m) hg
  | none =>
    rw [hs] at hg
    cases hs' : AMap.get (step M C O e s c).2.slots i with
    | none =>
      simp only
      rw [step_disks h1 h2]
      exact hg
    | some sl =>
      obtain ⟨e', cfg, conf, hcc, hmem, _, hnew⟩ := step_new hs hs'
      subst hcc
      refine ⟨?_, by rw [cfg_new hnew]; exact hm _ hmem, ?_⟩
      · rw [new_objs hnew]
        cases hd : AMap.get s.disks i with
        | some d => exact ht.disks i d hd
        | none => exact tblOk_nil
      · rw [new_objs hnew]
        cases hd : AMap.get s.disks i with
        | some d => exact hg d hd
        | none => intro r x hr; cases hr

theorem lasting_run {ty : Nat} {v : Bool} (w : OneWay ty v) (tr : Trace) (s : St) (i : Nat) (u : Bytes) (hi : Inv s)
    (ht : TInv s) (hm : ∀ p ∈ tr, noMerge p.2)
    (hc : ∀ p ∈ tr, ∀ sl o, MadeBy M C O p.1 sl p.2 o → o.getStr CKA_UNIQUE_ID ≠ .ok u)
    (hg : Lasting ty v i u s) : Lasting ty v i u (run M C O s tr) := by
  induction tr generalizing s with
  | nil => exact hg
  | cons p tr ih =>
    exact ih _ (inv_step M O p.1 s p.2 hi) (tinv_step M O p.1 s p.2 hi ht)
      (fun q hq => hm q (List.mem_cons_of_mem _ hq)) (fun q hq => hc q (List.mem_cons_of_mem _ hq))
      (lasting_step w p.1 s p.2 i u hi ht (hm p (List.mem_cons_self ..))
        (fun sl o _ m => hc p (List.mem_cons_self ..) sl o m) hg)

end Kry
