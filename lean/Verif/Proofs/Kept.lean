import Verif.Proofs.StickyDisk
import Verif.Proofs.VaultStep
import Verif.Spec.Search

/-!
# What leaves the rows of an object in the database alone
-/

namespace Kry
open Spec

variable {C : Crypto} {u : Bytes}

/-- Inserting another object. -/
theorem insert_rows {k : Nat} {a : Token} (e : Env) {o : Obj} (hz : Zero o) (hne : o.getStr CKA_UNIQUE_ID ≠ .ok u)
    (ok : TblOk a.store.db.objs) : rowsOf (a.insertObject C e k o).2.store.db.objs u = rowsOf a.store.db.objs u := by
  by_cases ht : o.isToken = true
  · unfold Token.insertObject
    rw [if_pos ht]
    split
    · rfl
    · rcases store_shape (C := C) e a.store a.handles o hz.handle with
        ⟨r, h'⟩ | ⟨F, uid, x, hF, huid, hx, ⟨r, _, h'⟩ | ⟨hins, r, _, h'⟩⟩
      · simp only [h']
      · simp only [h']
      · simp only [h']
        have hne : uid ≠ u := by
          intro he
          subst he
          exact hne huid
        have hxu : x.find CKA_UNIQUE_ID = o.find CKA_UNIQUE_ID ∧ Zero x := by
          split at hx
          · exact ⟨encryptLoop_find hx (uid_notIn hF).1, encryptLoop_zero hx hz⟩
          · injection hx with hx
            rw [← hx]; exact ⟨rfl, hz⟩
        refine storeObj_move (P := fun t' => rowsOf t' u = rowsOf a.store.db.objs u) rfl ?_
        intro u' t' hu' hst
        have hzd := zero_delAll (l := F.ephemeral) hxu.2
        have : u' = uid := by
          unfold Obj.getStr at hu' huid
          rw [find_delAll, if_neg (uid_notIn hF).2, hxu.1] at hu'
          rw [hu'] at huid
          injection huid
        subst this
        obtain ⟨_, rows, _, hr⟩ := store_inv ok hzd.uid hu' hst
        rw [hr, if_neg hne]
  · rw [(insert_sess (C := C) a e k o).2 (by simpa using ht)]

theorem bump_insert_get (h : Handles) (uid : Bytes) (n : Nat) {w : Bytes}
    (hg : ((h.bump.2).insert h.next uid).2.get n = some w) : h.get n = some w ∨ w = uid := by
  unfold Handles.insert at hg
  split at hg
  · exact .inl hg
  · unfold Handles.get Handles.bump at *
    simp only at hg
    rw [AMap.get_append] at hg
    cases hx : AMap.get h.map n with
    | some w' => rw [hx] at hg; exact .inl hg
    | none =>
      rw [hx] at hg
      right
      simp only [AMap.get_cons] at hg
      try simp only [Option.or, Option.orElse, Option.none_or] at hg
      split at hg
      · injection hg with hg; exact hg.symm
      · cases hg

/-- The handles after an insertion. -/
theorem insert_get {k : Nat} {a : Token} (e : Env) {o : Obj} (hz : Zero o) {n : Nat} {w : Bytes}
    (hg : (a.insertObject C e k o).2.handles.get n = some w) : a.handles.get n = some w ∨ o.getStr CKA_UNIQUE_ID = .ok w := by
  unfold Token.insertObject at hg
  split at hg
  · split at hg
    · exact .inl hg
    · rcases store_shape (C := C) e a.store a.handles o hz.handle with
        ⟨r, h'⟩ | ⟨F, uid, x, hF, huid, hx, ⟨r, _, h'⟩ | ⟨hins, r, _, h'⟩⟩
      · simp only [h'] at hg; exact .inl hg
      · simp only [h'] at hg
        rcases bump_insert_get _ _ _ hg with h | h
        · exact .inl h
        · rw [h]; exact .inr huid
      · simp only [h'] at hg
        rcases bump_insert_get _ _ _ hg with h | h
        · exact .inl h
        · rw [h]; exact .inr huid
  · have hu : ({ o with handle := a.handles.bump.1, session := k } : Obj).getStr CKA_UNIQUE_ID = o.getStr CKA_UNIQUE_ID := rfl
    simp only [hu] at hg
    revert hg
    cases hq : o.getStr CKA_UNIQUE_ID with
    | error r => exact fun hg => .inl hg
    | ok uid =>
      simp only
      have hb : a.handles.bump.1 = a.handles.next := rfl
      simp only [hb]
      have key := bump_insert_get a.handles uid n (w := w)
      revert key
      generalize (a.handles.bump.2).insert a.handles.next uid = p
      obtain ⟨r, h⟩ := p
      intro key
      cases r with
      | error r => exact fun hg => (key hg).imp id fun h => by rw [h]
      | ok _ => exact fun hg => (key hg).imp id fun h => by rw [h]

/-- Destroying another object. -/
theorem destroy_rows {a : Token} (e : Env) (n : Nat) (ok : TblOk a.store.db.objs) (hn : a.handles.get n ≠ some u) :
    rowsOf (a.destroyObject C e n).2.store.db.objs u = rowsOf a.store.db.objs u := by
  unfold Token.destroyObject
  split
  · split <;> rfl
  · split
    · rfl
    · split
      · rfl
      · simp only [Store.remove]
        split
        · rfl
        · rename_i uid hg
          unfold Db.removeByUid
          split
          · rfl
          · simp only
            rw [rowsOf_delete ok, if_neg]
            intro he
            rw [he] at hg
            exact hn hg

theorem destroy_get {a : Token} (e : Env) (n m : Nat) {w : Bytes} (h : (a.destroyObject C e n).2.handles.get m = some w) :
    a.handles.get m = some w := by
  have rem : (a.handles.remove n).get m = some w → a.handles.get m = some w := by
    unfold Handles.remove Handles.get
    simp only [AMap.get_erase]
    split
    · nofun
    · exact id
  unfold Token.destroyObject at h
  split at h
  · split at h
    · exact h
    · exact rem h
  · split at h
    · exact h
    · split at h
      · exact h
      · exact rem h

/-- Setting attributes of another object. -/
theorem setAttrs_rows {a : Token} (e : Env) (m : Nat) (tm : Template) (ok : TblOk a.store.db.objs) (hg : a.handles.get m ≠ some u) :
    rowsOf (a.setObjectAttrs C e m tm).2.store.db.objs u = rowsOf a.store.db.objs u := by
  unfold Token.setObjectAttrs
  split
  · split
    · rfl
    · rfl
  · split
    · rfl
    split
    · rfl
    split
    · rfl
    rename_i F hF
    split
    · rfl
    split
    · rfl
    rename_i hck
    have hno := checkSet_noUid hF hck
    rcases update_store (C := C) (e.sub 1) a.store a.handles m tm ok hno with
      ⟨h1, _⟩ | ⟨u', o, F, tm', o1, t', hg', hf, hF, htm, ho, z, hu', hst, h1⟩
    · simp only [h1]
    · simp only [h1]
      obtain ⟨_, rows, _, hr⟩ := store_inv ok z hu' hst
      rw [hr, if_neg]
      intro he; rw [he] at hg'; exact hg hg'

theorem setAttrs_handles {a : Token} (e : Env) (m : Nat) (tm : Template) :
    (a.setObjectAttrs C e m tm).2.handles = a.handles := by
  unfold Token.setObjectAttrs
  repeat' split
  all_goals rfl

/-- The rows `r` of `u`, on a token that does not merge duplicates, with no handle in `B` for `u`. -/
structure KeptRow (u : Bytes) (r : Option (List (Nat × DbVal))) (B : Nat → Prop) (t : Token) : Prop where
  tbl : TblOk t.store.db.objs
  dd : t.cfg.dedup = none
  row : rowsOf t.store.db.objs u = r
  apart : ∀ n, B n → t.handles.get n ≠ some u

theorem act_kept {Z : Lic} {k : Nat} {D : Nat → Prop} {N : Obj → Prop} {B : Nat → Prop} {r : Option (List (Nat × DbVal))}
    {a b : Token} (x : TAct C Z k D N a b)
    (hN : ∀ o, N o → o.getStr CKA_UNIQUE_ID ≠ .ok u) (hD : ∀ n, D n → B n) (hW : ∀ n tm, Z.wr n tm → B n)
    (hB : Z.find ∨ Z.pin → ∀ n, ¬ B n) (h : KeptRow u r B a) : KeptRow u r B b := by
  have ok : TblOk b.store.db.objs := (act_move (I := False) x h.tbl).ok h.tbl
  have dd : b.cfg.dedup = none := by rw [(act_same x).cfg]; exact h.dd
  cases x with
  | insert e o t hz hn =>
    refine ⟨ok, dd, (insert_rows e hz (hN o hn) h.tbl).trans h.row, fun n hb hg => ?_⟩
    rcases insert_get e hz hg with h1 | h1
    · exact h.apart n hb h1
    · exact hN o hn h1
  | destroy e n t hd =>
    exact ⟨ok, dd, (destroy_rows e n h.tbl (h.apart n (hD n hd))).trans h.row, fun m hb hg => h.apart m hb (destroy_get e n m hg)⟩
  | setAttrs e n tm t hw =>
    exact ⟨ok, dd, (setAttrs_rows e n tm h.tbl (h.apart n (hW n tm hw))).trans h.row, fun m hb => by
      rw [setAttrs_handles]; exact h.apart m hb⟩
  | search e tm t hf => exact ⟨ok, dd, h.row, fun n hb => absurd hb (hB (.inl hf) n)⟩
  | update e n tm t hl hu hdd => exact absurd h.dd hdd
  | initPin e pin t hp =>
    refine ⟨ok, dd, ?_, fun n hb => absurd hb (hB (.inr hp) n)⟩
    rw [← h.row]
    unfold fnInitPin
    split
    · rfl
    · rw [setPin_objs]
  | changePin e s old new t hp hd =>
    exact ⟨ok, dd, by rw [fnSetPin_objs]; exact h.row, fun n hb => absurd hb (hB (.inr hp) n)⟩

theorem acts_kept {Z : Lic} {k : Nat} {D : Nat → Prop} {N : Obj → Prop} {B : Nat → Prop} {r : Option (List (Nat × DbVal))}
    {a b : Token} (x : TActs C Z k D N a b)
    (hN : ∀ o, N o → o.getStr CKA_UNIQUE_ID ≠ .ok u) (hD : ∀ n, D n → B n) (hW : ∀ n tm, Z.wr n tm → B n)
    (hB : Z.find ∨ Z.pin → ∀ n, ¬ B n) (h : KeptRow u r B a) : KeptRow u r B b :=
  TActs.inv (P := KeptRow u r B) (fun _ _ x p => act_kept x hN hD hW hB p) x h

/-! ## The machine -/

section
variable {M : Mechs} {O : Oracle}

/-- The slot is still there, with the same stored objects. -/
def SameObjs (i : Nat) (sl : Slot) (p : Out × St) : Prop :=
  ∃ sl', AMap.get p.2.slots i = some sl' ∧ sl'.token.store.db.objs = sl.token.store.db.objs

theorem sameObjs_same {i : Nat} {sl : Slot} {p : Out × St} (h : AMap.get p.2.slots i = some sl) : SameObjs i sl p := ⟨sl, h, rfl⟩

theorem sameObjs_set {i : Nat} {sl sl' : Slot} {s : St} {r : Out} (h : AMap.get s.slots i = some sl)
    (hb : sl'.token.store.db.objs = sl.token.store.db.objs) : SameObjs i sl (r, s.setSlot i sl') :=
  ⟨sl', (get_setSlot h).trans (if_pos rfl), hb⟩

theorem dropAll_objs (l : List Nat) (t : Token) : (l.foldl Token.dropSessionObjects t).store.db.objs = t.store.db.objs := by
  induction l generalizing t with
  | nil => rfl
  | cons n l ih => exact (ih _).trans rfl

/-- Calls that do not work on objects. -/
theorem step_objs {e : Env} {s : St} {i : Nat} {c : Call} {sl : Slot} (hi : Inv s)
    (hs : AMap.get s.slots i = some sl) (h1 : c ≠ .finalize) (h2 : c ≠ .crash) (h3 : ∀ p l, c ≠ .initToken i p l)
    (h4 : ∀ h k, c ≠ .sess h k) (h5 : ∀ h k, c ≠ .op h k) : SameObjs i sl (step M C O e s c) := by
  cases c with
  | «initialize» conf =>
    refine sameObjs_same ?_
    show AMap.get (fnInitialize C e s conf).2.slots i = some sl
    unfold fnInitialize
    by_cases h : s.ready = true
    · rw [if_pos h]; exact initSlots_keep hs
    · have := (hi.off (by simpa [St.ready] using h)).1
      rw [this] at hs; cases hs
  | finalize => exact absurd rfl h1
  | crash => exact absurd rfl h2
  | sess h k => exact absurd rfl (h4 h k)
  | op h k => exact absurd rfl (h5 h k)
  | openSession j f =>
    show SameObjs i sl (fnOpen s j f)
    unfold fnOpen
    split
    · exact sameObjs_same hs
    · rename_i slj hg
      obtain ⟨hr, hj⟩ := getSlot_ok hg
      repeat' split
      all_goals first | exact sameObjs_same hs | skip
      by_cases ij : j = i
      · subst ij
        rw [hs] at hj; injection hj with hj; subst hj
        exact ⟨_, (get_setSlot hs).trans (if_pos rfl), rfl⟩
      · exact sameObjs_same ((get_setSlot_ne ij).trans hs)
  | closeSession h =>
    show SameObjs i sl (fnClose e s h)
    unfold fnClose
    split
    · exact sameObjs_same hs
    · rename_i j slj hg
      obtain ⟨hr, hm, hj⟩ := getSessionSlot_ok hg
      split
      · exact sameObjs_same hs
      · by_cases ij : j = i
        · subst ij
          rw [hs] at hj; injection hj with hj; subst hj
          refine ⟨_, (get_setSlot hs).trans (if_pos rfl), ?_⟩
          simp only
          split
          · exact (logout_objs e _).trans rfl
          · rfl
        · exact sameObjs_same ((get_setSlot_ne ij).trans hs)
  | closeAll j =>
    show SameObjs i sl (fnCloseAll e s j)
    unfold fnCloseAll
    split
    · exact sameObjs_same hs
    · simp only
      split
      · exact sameObjs_same hs
      · rename_i slj hg
        obtain ⟨hr, hj⟩ := getSlot_ok hg
        have hj : AMap.get s.slots j = some slj := hj
        have hs' : AMap.get ({ s with smap := AMap.retain s.smap fun _ v => v ≠ j } : St).slots i = some sl := hs
        by_cases ij : j = i
        · subst ij
          rw [hs] at hj; injection hj with hj; subst hj
          split
          · exact ⟨_, (get_setSlot hs').trans (if_pos rfl), rfl⟩
          · exact ⟨_, (get_setSlot hs').trans (if_pos rfl), (logout_objs e _).trans (dropAll_objs _ _)⟩
        · split
          all_goals exact sameObjs_same ((get_setSlot_ne ij).trans hs')
  | login h ut pin =>
    show SameObjs i sl (fnLogin C e s h ut pin)
    unfold fnLogin
    split
    · exact sameObjs_same hs
    · rename_i j slj x hg
      obtain ⟨hr, hm, hj, hx⟩ := getSession_ok hg
      by_cases ij : j = i
      · subst ij
        rw [hs] at hj; injection hj with hj; subst hj
        have lo := login_objs (C := C) (e.sub 0) sl.token ut pin
        generalize sl.token.login C (e.sub 0) ut pin = p at lo ⊢
        obtain ⟨r, t⟩ := p
        simp only at lo
        simp only
        repeat' split
        all_goals first
          | exact sameObjs_same hs
          | exact sameObjs_set hs lo
          | exact sameObjs_set hs ((logout_objs _ _).trans lo)
      · repeat' split
        all_goals first
          | exact sameObjs_same hs
          | exact sameObjs_same ((get_setSlot_ne ij).trans hs)
  | logout h =>
    show SameObjs i sl (fnLogout e s h)
    unfold fnLogout
    split
    · exact sameObjs_same hs
    · rename_i j slj x hg
      obtain ⟨hr, hm, hj, hx⟩ := getSession_ok hg
      by_cases ij : j = i
      · subst ij
        rw [hs] at hj; injection hj with hj; subst hj
        have lo := logout_objs e sl.token
        generalize sl.token.logout e = p at lo ⊢
        obtain ⟨r, t⟩ := p
        split
        · exact sameObjs_same hs
        · cases r <;> exact sameObjs_set hs lo
      · repeat' split
        all_goals first
          | exact sameObjs_same hs
          | exact sameObjs_same ((get_setSlot_ne ij).trans hs)
  | initToken j pin l =>
    have ij : j ≠ i := fun h => h3 pin l (by rw [h])
    show SameObjs i sl (fnInitToken C e s j pin l)
    unfold fnInitToken
    split
    · exact sameObjs_same hs
    · split
      · exact sameObjs_same hs
      · rename_i slj hg _
        extract_lets lab
        generalize slj.token.initToken C e pin lab = p
        obtain ⟨r, t⟩ := p
        simp only
        repeat' split
        all_goals exact sameObjs_same ((get_setSlot_ne ij).trans hs)
  | getTokenInfo j =>
    simp only [step]
    split <;> exact sameObjs_same hs

/-- The mechanisms keep no counter in the key (HOTP does). -/
def Spec.noCounter (M : Mechs) : Prop := ∀ e k a op i, (M.run e k a op i).2.upd = none

/-- Where the stored rows of `u` are `r`, in slot `i`, loaded or not. -/
structure KeptAt (u : Bytes) (r : Option (List (Nat × DbVal))) (s : St) (i : Nat) : Prop where
  row : rowsOf (dbAt s i).objs u = r
  dd : ∀ sl, AMap.get s.slots i = some sl → sl.token.cfg.dedup = none

/-- The call neither changes nor destroys, on a session of slot `i`, the object with unique id `u`. -/
def Spec.sparesId (s : St) (i : Nat) (u : Bytes) (c : Call) : Prop :=
  ∀ h n, (c = .sess h (.destroyObject n) ∨ ∃ tm, c = .sess h (.setAttr n tm)) → ¬ standsFor s i n u

theorem path_cfg {k : Nat} {D : Nat → Prop} {N : Obj → Prop} {I : Prop} {a b : Token} (x : TPath C k D N I W a b) : b.cfg = a.cfg :=
  TPath.inv (P := fun t => t.cfg = a.cfg) (fun _ _ x p => (prim_cfg x).trans p) x rfl

theorem kept_sess {e : Env} {h i : Nat} {c : SCall} {s : St} {sl : Slot} {x : Session} {r : Option (List (Nat × DbVal))}
    (hs : AMap.get s.slots i = some sl)
    (hN : ∀ o, MadeS C O e x sl.token c o → o.getStr CKA_UNIQUE_ID ≠ .ok u)
    (hsp : sparesId s i u (.sess h c)) (k : KeptRow u r (fun _ => False) sl.token) :
    rowsOf (sessStep C O e h c x sl.token).2.2.store.db.objs u = r := by
  by_cases hp : (∃ p, c = .initPin p) ∨ ∃ p q, c = .setPin p q
  · rcases hp with ⟨p, rfl⟩ | ⟨p, q, rfl⟩
    · have : (sessStep C O e h (.initPin p) x sl.token).2.2.store.db.objs = sl.token.store.db.objs := by
        simp only [sessStep]
        split
        · rfl
        · unfold fnInitPin
          split
          · rfl
          · rw [setPin_objs]
      rw [this]; exact k.row
    · have : (sessStep C O e h (.setPin p q) x sl.token).2.2.store.db.objs = sl.token.store.db.objs := by
        simp only [sessStep]
        rw [fnSetPin_objs]
      rw [this]; exact k.row
  let B : Nat → Prop := fun n => c = .destroyObject n ∨ ∃ tm, c = .setAttr n tm
  have a := acts_sessMadeW (C := C) (Z := ⟨False, fun n tm => c = .setAttr n tm, ∀ n, ¬ B n⟩) (h := h) (D := fun n => c = .destroyObject n) O e c x sl.token
    (fun n hc => hc) (fun hz => hp hz) (fun n tm hc => hc)
    (fun hf n hb => by
      rcases hf with ⟨tm, rfl⟩ | ⟨tm, rfl⟩ <;> rcases hb with hb | ⟨_, hb⟩ <;> cases hb)
    (fun old new hc => absurd (.inr ⟨old, new, hc⟩) hp)
  have k' : KeptRow u r B sl.token := ⟨k.tbl, k.dd, k.row, fun n hb hg => hsp h n
    (hb.imp (fun h => by rw [h]) fun ⟨tm, h⟩ => ⟨tm, by rw [h]⟩) ⟨sl, hs, hg⟩⟩
  exact (acts_kept (u := u) (B := B) a hN (fun n hd => .inl hd) (fun n tm hw => .inr ⟨tm, hw⟩)
    (fun hf => hf.elim (fun h => h) (fun h => h.elim)) k').row

theorem kept_op {e : Env} {h : Nat} {c : OCall} {t : Token} {x : Session} {r : Option (List (Nat × DbVal))}
    (hM : noCounter M) (hh : HOk t) (hN : ∀ o, MadeO M e x c o → o.getStr CKA_UNIQUE_ID ≠ .ok u)
    (k : KeptRow u r (fun _ => False) t) : rowsOf (opStep M C e h c x t).2.2.store.db.objs u = r := by
  have a := acts_opMadeW (C := C) (Z := ⟨False, fun _ _ => False, False⟩) (h := h) (D := fun n => t.handles.next ≤ n) M e c x t
    (fun n hn => hn) (fun e k a op i n tm hu => by rw [hM] at hu; cases hu)
  have k' : KeptRow u r (fun n => t.handles.next ≤ n) t := ⟨k.tbl, k.dd, k.row, fun n hb hg => by
    have := hh.hs.low n u hg
    omega⟩
  exact (acts_kept (u := u) a hN (fun n hd => hd) (fun n _ hw => hw.elim) (fun hf => hf.elim (fun h => h.elim) (fun h => h.elim)) k').row

theorem dbAt_files {s : St} {i : Nat} (hi : Inv s) : dbAt ⟨[], [], 0, s.files⟩ i = dbAt s i := by
  unfold dbAt
  show (match AMap.get s.files i with | some d => d | none => Db.empty) = _
  rw [get_files s i hi.slotsND]
  cases AMap.get s.slots i <;> rfl

theorem kept_step {e : Env} {s : St} {c : Call} {i : Nat} {r : Option (List (Nat × DbVal))} (hi : Inv s) (hv : HInv s) (ht : TInv s)
    (hM : noCounter M) (hm : noMerge c) (hsp : sparesId s i u c) (hini : ∀ p l, c ≠ .initToken i p l)
    (hc : ∀ sl o, AMap.get s.slots i = some sl → MadeBy M C O e sl c o → o.getStr CKA_UNIQUE_ID ≠ .ok u)
    (hg : KeptAt u r s i) : KeptAt u r (step M C O e s c).2 i := by
  have fin : KeptAt u r ⟨[], [], 0, s.files⟩ i := ⟨by rw [dbAt_files hi]; exact hg.row, fun sl h => by cases h⟩
  by_cases h1 : c = .finalize
  · subst h1
    simp only [step, fnFinalize]
    split
    · exact hg
    · exact fin
  by_cases h2 : c = .crash
  · subst h2; exact fin
  cases hs : AMap.get s.slots i with
  | some sl =>
    have hr : rowsOf sl.token.store.db.objs u = r := by rw [← dbAt_some hs]; exact hg.row
    obtain ⟨sl2, hs2, p⟩ := step_path (M := M) (O := O) (e := e) hi hs h1 h2
    have dd : ∀ sl', AMap.get (step M C O e s c).2.slots i = some sl' → sl'.token.cfg.dedup = none := by
      intro sl' h'
      rw [hs2] at h'; injection h' with h'; subst h'
      rw [path_cfg p]; exact hg.dd _ hs
    refine ⟨?_, dd⟩
    have k0 : KeptRow u r (fun _ => False) sl.token := ⟨ht.slots i sl hs, hg.dd _ hs, hr, fun _ h => h.elim⟩
    by_cases h4 : ∃ h k, c = .sess h k
    · obtain ⟨h, k, rfl⟩ := h4
      simp only [step]
      split
      · exact hg.row
      · rename_i j slj x hgs
        obtain ⟨_, hm', hj, hx⟩ := getSession_ok hgs
        by_cases ij : j = i
        · subst ij
          rw [hs] at hj; injection hj with hj; subst hj
          rw [dbAt_some ((get_setSlot hs).trans (if_pos rfl))]
          exact kept_sess hs (fun o m => hc sl o hs (.sess hx m)) hsp k0
        · rw [dbAt_some ((get_setSlot_ne ij).trans hs)]; exact hr
    by_cases h5 : ∃ h k, c = .op h k
    · obtain ⟨h, k, rfl⟩ := h5
      simp only [step]
      split
      · exact hg.row
      · rename_i j slj x hgs
        obtain ⟨_, hm', hj, hx⟩ := getSession_ok hgs
        by_cases ij : j = i
        · subst ij
          rw [hs] at hj; injection hj with hj; subst hj
          rw [dbAt_some ((get_setSlot hs).trans (if_pos rfl))]
          exact kept_op hM (hv j sl hs).ok (fun o m => hc sl o hs (.op hx m)) k0
        · rw [dbAt_some ((get_setSlot_ne ij).trans hs)]; exact hr
    obtain ⟨sl', hs', ho⟩ := step_objs (M := M) (O := O) (e := e) hi hs h1 h2 hini (fun h k hc => h4 ⟨h, k, hc⟩) (fun h k hc => h5 ⟨h, k, hc⟩)
    rw [dbAt_some hs', ho]; exact hr
  | none =>
    cases hs' : AMap.get (step M C O e s c).2.slots i with
    | none =>
      refine ⟨?_, fun sl h => by rw [hs'] at h; cases h⟩
      have : dbAt (step M C O e s c).2 i = dbAt s i := by
        unfold dbAt; rw [hs', hs, step_disks h1 h2]
      rw [this]; exact hg.row
    | some sl =>
      obtain ⟨e', cfg, conf, hcc, hmem, _, hnew⟩ := step_new hs hs'
      subst hcc
      refine ⟨?_, fun sl1 h => ?_⟩
      · have hr := hg.row
        unfold dbAt at hr
        rw [hs] at hr
        rw [dbAt_some hs', new_objs hnew]
        revert hr
        simp only
        cases AMap.get s.disks i <;> exact id
      · rw [hs'] at h; injection h with h; subst h
        rw [cfg_new hnew]; exact hm _ hmem

end

end Kry
