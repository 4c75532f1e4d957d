import Verif.Proofs.ReadBack
import Verif.Proofs.Dead
import Verif.Props.C14
import Verif.Props.MachineEx
import Verif.Props.Sessions

/-!
# C49: C_SetAttributeValue changes the named attributes of the named object and nothing else

`C49_fixed`: CKA_TOKEN, CKA_PRIVATE, CKA_MODIFIABLE and CKA_UNIQUE_ID are never accepted, and CKA_COPYABLE not as
true; the refused call changes nothing.  `C49_others`: whatever the call answers, C_GetAttributeValue answers the
same as before for every other object of every slot.  `C49_unnamed`: it also answers the same for the attributes of the
object that the template does not name, unless the template names one of the five attributes that decide what may be
read (class, key type, certificate type, CKA_SENSITIVE, CKA_EXTRACTABLE).

What does not hold: a call that fails has not always left a session object as it was (`C49_failed_violation`).
-/

namespace Kry
open Spec

/-- The attributes C_SetAttributeValue never accepts. -/
def Spec.fixedAttrs : List Nat := [CKA_TOKEN, CKA_PRIVATE, CKA_MODIFIABLE, CKA_UNIQUE_ID]

/-- No class lets attribute `t` be set (to `v`, if given). -/
def locked (t : Nat) (F : Factory) : Bool :=
  match findF F.attrs t with
  | none => true
  | some f => f.is oaNeverSettable ||
    (f.is oaUnchangeable && !f.is oaChangeToTrue && !f.is oaChangeToFalse)

def lockedTrue (t : Nat) (F : Factory) : Bool :=
  match findF F.attrs t with
  | none => true
  | some f => f.is oaNeverSettable || (f.is oaUnchangeable && !f.is oaChangeToTrue)

theorem locked_all : (fixedAttrs.all fun t => allFactories (locked t)) = true := by decide +kernel
theorem lockedTrue_all : allFactories (lockedTrue CKA_COPYABLE) = true := by decide +kernel

/-- The entry of a template that is refused. -/
def Spec.refusedEntry (c : CkAttr) : Prop := c.typ ∈ fixedAttrs ∨ (c.typ = CKA_COPYABLE ∧ c.toBool = .ok true)

theorem checkSet_refuses {o : Obj} {F : Factory} {tm : Template} (hF : objFactory o = .ok F)
    (hc : ∃ c ∈ tm, refusedEntry c) : ∃ r, checkSetAttributes F.attrs tm = .error r := by
  obtain ⟨c, hc, h⟩ := hc
  cases hk : checkSetAttributes F.attrs tm with
  | error r => exact ⟨r, rfl⟩
  | ok u =>
    exfalso
    obtain ⟨f, hf, h1, h2⟩ := checkSetAttributes_ok hk c hc
    obtain ⟨k, hm⟩ := objFactory_mem hF
    rcases h with h | ⟨h, ht⟩
    · have := allFactories_spec (List.all_eq_true.1 locked_all _ h) hm
      unfold locked at this
      rw [hf] at this
      simp only [h1, Bool.false_or, Bool.and_eq_true, Bool.not_eq_true'] at this
      obtain ⟨_, b, _, hb⟩ := h2 this.1.1
      cases b <;> simp_all
    · have := allFactories_spec lockedTrue_all hm
      unfold lockedTrue at this
      rw [← h, hf] at this
      simp only [h1, Bool.false_or, Bool.and_eq_true, Bool.not_eq_true'] at this
      obtain ⟨_, b, hb1, hb⟩ := h2 this.1
      rw [ht] at hb1
      injection hb1 with hb1
      subst hb1
      simp_all

section
variable {C : Crypto}

theorem setAttrs_refuses (e : Env) (t : Token) (hn : (AMap.keys t.sess).Nodup) (n : Nat) (tm : Template)
    (hc : ∃ c ∈ tm, refusedEntry c) : ∃ r, t.setObjectAttrs C e n tm = (.error r, t) := by
  unfold Token.setObjectAttrs
  split
  · rename_i o ho
    split
    · exact ⟨_, rfl⟩
    rename_i F hF
    obtain ⟨r, hr⟩ := checkSet_refuses hF hc
    have : ∃ r, setObjectAttributes F o tm = (.error r, o) := by
      unfold setObjectAttributes
      split
      · exact ⟨_, rfl⟩
      · rw [hr]; exact ⟨_, rfl⟩
    obtain ⟨r, hr⟩ := this
    refine ⟨r, ?_⟩
    rw [hr]
    simp only
    rw [AMap.modify_self hn ho]
  · split
    · exact ⟨_, rfl⟩
    split
    · exact ⟨_, rfl⟩
    split
    · exact ⟨_, rfl⟩
    rename_i F hF
    split
    · exact ⟨_, rfl⟩
    obtain ⟨r, hr⟩ := checkSet_refuses hF hc
    rw [hr]
    exact ⟨_, rfl⟩

/-- Tokens that answer C_GetAttributeValue alike for all handles but `n`. -/
structure AlikeBut (n : Nat) (a b : Token) : Prop where
  info : b.info = a.info
  logged : b.logged = a.logged
  handles : b.handles = a.handles
  aci : b.store.aci = a.store.aci
  sess : ∀ m, m ≠ n → AMap.get b.sess m = AMap.get a.sess m
  oka : TblOk a.store.db.objs
  okb : TblOk b.store.db.objs
  rows : ∀ m u, m ≠ n → a.handles.get m = some u → rowsOf b.store.db.objs u = rowsOf a.store.db.objs u

theorem AlikeBut.refl (n : Nat) {a : Token} (ok : TblOk a.store.db.objs) : AlikeBut n a a :=
  ⟨rfl, rfl, rfl, rfl, fun _ _ => rfl, ok, ok, fun _ _ _ _ => rfl⟩

theorem AlikeBut.getAttrs {n : Nat} {a b : Token} (h : AlikeBut n a b) {m : Nat} (hm : m ≠ n) (e : Env) (q : List OutAttr) :
    b.getObjectAttrs C e m q = a.getObjectAttrs C e m q := by
  unfold Token.getObjectAttrs
  have hl : b.loggedIn = a.loggedIn := by unfold Token.loggedIn; rw [h.logged]
  rw [hl, h.sess m hm, h.handles]
  simp only
  rw [fetch_congr h.okb h.oka h.aci (fun u hu => h.rows m u hm hu)]

/-- What C_SetAttributeValue does to storage: nothing, or it writes the object back changed. -/
theorem update_store (e : Env) (s : Store) (h : Handles) (n : Nat) (tm : Template) (ok : TblOk s.db.objs)
    (hu : ∀ c ∈ tm, c.typ ≠ CKA_UNIQUE_ID) :
    ((s.update C e h n tm).2 = s ∧ ∃ r, (s.update C e h n tm).1 = .error r) ∨
    ∃ u o F tm' o1 t', h.get n = some u ∧ s.db.fetchByUid (e.sub 0) u [] = .ok o ∧ objFactory o = .ok F ∧
      (if s.aci.encrypt then updateEncrypt C (e.sub 1) s.aci u F.sensitive 0 tm else .ok tm) = .ok tm' ∧
      setAllCk o tm' = .ok o1 ∧ uidCount (delAll o1 F.ephemeral).attrs ≤ 1 ∧
      (delAll o1 F.ephemeral).getStr CKA_UNIQUE_ID = .ok u ∧
      storeObject s.db.objs u (delAll o1 F.ephemeral) = .ok t' ∧
      (s.update C e h n tm) = (.ok (), { s with db := { s.db with objs := t' } }) := by
  unfold Store.update
  split
  · exact .inl ⟨rfl, _, rfl⟩
  · rename_i uid hg
    split
    · exact .inl ⟨rfl, _, rfl⟩
    · rename_i o ho
      split
      · exact .inl ⟨rfl, _, rfl⟩
      · rename_i F hF
        extract_lets t'
        have ht' : ∀ tm', t' = .ok tm' → ∀ c ∈ tm', c.typ ≠ CKA_UNIQUE_ID := by
          intro tm' h c hc e
          simp only [t'] at h
          split at h
          · rcases updateEncrypt_typ h c hc with h | ⟨c', h1, h2⟩
            · rw [e] at h; exact (uid_notIn hF).1 h
            · exact hu c' h1 (h2.trans e)
          · injection h with h; subst h; exact hu c hc e
        rcases ht : t' with r | tm'
        · exact .inl ⟨rfl, _, rfl⟩
        · have hc := ht' tm' ht
          simp only
          cases ho' : setAllCk o tm' with
          | error r => exact .inl ⟨rfl, _, rfl⟩
          | ok o' =>
            obtain ⟨z, hf⟩ := fetchByUid_uid ok ho
            simp only [true_or, if_true] at hf
            obtain ⟨z', hf'⟩ := setAllCk_keep ho' z hc
            simp only [Db.storeObj]
            cases hst : (delAll o' F.ephemeral).getStr CKA_UNIQUE_ID with
            | error r => exact .inl ⟨rfl, _, rfl⟩
            | ok u =>
              have hu2 := hst
              unfold Obj.getStr at hu2
              rw [find_delAll, if_neg (uid_notIn hF).2, hf', hf] at hu2
              have : u = uid := toStr_val hu2
              subst this
              simp only
              split
              · exact .inl ⟨rfl, _, rfl⟩
              cases hso : storeObject s.db.objs u (delAll o' F.ephemeral) with
              | error r => exact .inl ⟨rfl, _, rfl⟩
              | ok t2 =>
                exact .inr ⟨u, o, F, tm', o', t2, hg, ho, hF, ht, ho', (zero_delAll z').uid, hst, hso, rfl⟩

theorem update_alike (e : Env) (n : Nat) (tm : Template) (t : Token) (hh : HsOk t.handles) (ok : TblOk t.store.db.objs)
    (hu : ∀ c ∈ tm, c.typ ≠ CKA_UNIQUE_ID) :
    AlikeBut n t { t with store := (t.store.update C e t.handles n tm).2 } := by
  rcases update_store (C := C) e t.store t.handles n tm ok hu with ⟨h, _⟩ | ⟨u, o, F, tm', o1, t', hg, _, _, _, _, z, hu, hst, h⟩
  · rw [h]; exact .refl n ok
  · rw [h]
    obtain ⟨ok', rows, _, hr⟩ := store_inv ok z hu hst
    refine ⟨rfl, rfl, rfl, rfl, fun _ _ => rfl, ok, ok', ?_⟩
    intro m v hm hv
    show rowsOf t' v = _
    rw [hr, if_neg]
    rintro rfl
    exact hm (hh.inj hv hg)

theorem setAttrs_alike (e : Env) (n : Nat) (tm : Template) (t : Token) (hh : HsOk t.handles) (ok : TblOk t.store.db.objs) :
    AlikeBut n t (t.setObjectAttrs C e n tm).2 := by
  unfold Token.setObjectAttrs
  split
  · split
    · exact .refl n ok
    · refine ⟨rfl, rfl, rfl, rfl, fun m hm => ?_, ok, ok, fun _ _ _ _ => rfl⟩
      simp only [AMap.get_modify]
      rw [if_neg (Ne.symm hm)]
  split
  · exact .refl n ok
  split
  · exact .refl n ok
  split
  · exact .refl n ok
  split
  · exact .refl n ok
  split
  · exact .refl n ok
  exact update_alike (e.sub 1) n tm t hh ok (checkSet_noUid (by assumption) (by assumption))

/-- The attributes that decide whether and how an attribute may be read. -/
def Spec.decisive : List Nat := [CKA_CLASS, CKA_KEY_TYPE, CKA_CERTIFICATE_TYPE, CKA_SENSITIVE, CKA_EXTRACTABLE]

theorem mem_addMissing_inv {l : List Nat} {t u : Nat} (h : t ∈ addMissing l u) : t ∈ l ∨ t = u := by
  unfold addMissing at h
  split at h
  · exact .inl h
  · rcases List.mem_append.1 h with h | h
    · exact .inl h
    · exact .inr (by simpa using h)

theorem mem_fetchHints_inv {l : List Nat} {t : Nat} (h : t ∈ fetchHints l) : t ∈ l ∨ t ∈ decisive := by
  unfold fetchHints at h
  split at h
  · cases h
  · unfold decisive
    rcases mem_addMissing_inv h with h | h
    · rcases mem_addMissing_inv h with h | h
      · rcases mem_addMissing_inv h with h | h
        · rcases mem_addMissing_inv h with h | h
          · rcases mem_addMissing_inv h with h | h
            · exact .inl h
            · simp [h]
          · simp [h]
        · simp [h]
      · simp [h]
    · simp [h]

theorem ephemeral_one : allFactories (fun F => F.ephemeral.all (· == CKA_OBJECT_VALIDATION_FLAGS)) = true := by decide +kernel

theorem ephemeral_mem {o : Obj} {F : Factory} (hF : objFactory o = .ok F) {t : Nat} (h : t ∈ F.ephemeral) :
    t = CKA_OBJECT_VALIDATION_FLAGS := by
  obtain ⟨k, hk⟩ := objFactory_mem hF
  simpa using List.all_eq_true.1 (allFactories_spec ephemeral_one hk) t h

theorem replaceFirst_mem {tm : Template} {t : Nat} {v : Bytes} (hm : ∃ c ∈ tm, c.typ = t) {c : CkAttr}
    (h : c ∈ replaceFirst tm t v) : ∃ c' ∈ tm, c'.typ = c.typ := by
  rcases replaceFirst_typ h with h | h
  · obtain ⟨c', h1, h2⟩ := hm
    exact ⟨c', h1, h2.trans h.symm⟩
  · exact ⟨c, h, rfl⟩

theorem updateEncrypt_mem {e : Env} {a : Aci} {uid : Bytes} {ts : List Nat} {i : Nat} {tm tm' : Template}
    (h : updateEncrypt C e a uid ts i tm = .ok tm') : ∀ c ∈ tm', ∃ c' ∈ tm, c'.typ = c.typ := by
  induction ts generalizing i tm with
  | nil => injection h with h; rw [← h]; exact fun c hc => ⟨c, hc, rfl⟩
  | cons x ts ih =>
    unfold updateEncrypt at h
    split at h
    · exact ih h
    · rename_i d hd
      split at h
      · cases h
      · intro c hc
        obtain ⟨c', h1, h2⟩ := ih h c hc
        obtain ⟨c2, h3, h4⟩ := replaceFirst_mem ⟨d, List.mem_of_find?_eq_some hd, by simpa using List.find?_some hd⟩ h1
        exact ⟨c2, h3, h4.trans h2⟩

theorem setAttrs_own (e e' : Env) (n : Nat) (tm : Template) (t : Token) (ok : TblOk t.store.db.objs)
    (q : List OutAttr) (hq : q ≠ []) (hv : CKA_OBJECT_VALIDATION_FLAGS ∉ q.map OutAttr.typ)
    (hn : ∀ c ∈ tm, c.typ ∉ q.map OutAttr.typ ∧ c.typ ∉ decisive) :
    (t.setObjectAttrs C e n tm).2.getObjectAttrs C e' n q = t.getObjectAttrs C e' n q := by
  have fixedTm : ∀ {F : Factory} {o : Obj}, objFactory o = .ok F → checkSetAttributes F.attrs tm = .ok () →
      ∀ c ∈ tm, c.typ ∉ fixedAttrs := by
    intro F o hF hk c hc hm
    obtain ⟨r, hr⟩ := checkSet_refuses hF ⟨c, hc, .inl hm⟩
    rw [hr] at hk; cases hk
  unfold Token.setObjectAttrs
  split
  · rename_i o ho
    split
    · rfl
    rename_i F hF
    have self : ({ t with sess := AMap.modify t.sess n fun _ => o } : Token).getObjectAttrs C e' n q =
        t.getObjectAttrs C e' n q := by
      have : AMap.get (AMap.modify t.sess n fun _ => o) n = AMap.get t.sess n := by
        rw [AMap.get_modify, if_pos rfl, ho]; rfl
      unfold Token.getObjectAttrs Token.loggedIn
      simp only [this]
    have cs : (∃ r, setObjectAttributes F o tm = (.error r, o)) ∨
        (checkSetAttributes F.attrs tm = .ok () ∧ setObjectAttributes F o tm = applyTemplate o tm) := by
      unfold setObjectAttributes
      split
      · exact .inl ⟨_, rfl⟩
      split
      · exact .inl ⟨_, rfl⟩
      · rename_i hk; exact .inr ⟨hk, rfl⟩
    rcases cs with ⟨r, hr⟩ | ⟨hk, hr⟩
    · rw [hr]; exact self
    · rw [hr]
      have hfx := fixedTm hF hk
      simp only
      have hget : AMap.get (AMap.modify t.sess n fun _ => (applyTemplate o tm).2) n = some (applyTemplate o tm).2 := by
        rw [AMap.get_modify, if_pos rfl, ho]; rfl
      have hf : ∀ ty, (∀ c ∈ tm, c.typ ≠ ty) → (applyTemplate o tm).2.find ty = o.find ty :=
        fun ty h => applyTemplate_find_none o h
      have hfd : ∀ ty ∈ decisive, (applyTemplate o tm).2.find ty = o.find ty :=
        fun ty h => hf ty (fun c hc e => (hn c hc).2 (e ▸ h))
      have hff : ∀ ty ∈ fixedAttrs, (applyTemplate o tm).2.find ty = o.find ty :=
        fun ty h => hf ty (fun c hc e => hfx c hc (e ▸ h))
      have hcls : (applyTemplate o tm).2.cls = o.cls := by
        have : ∀ (tm : Template) (o : Obj), (∀ c ∈ tm, c.typ ≠ CKA_CLASS) → (applyTemplate o tm).2.cls = o.cls := by
          intro tm
          induction tm with
          | nil => intro o _; rfl
          | cons c tm ih =>
            intro o h
            unfold applyTemplate
            split
            · rfl
            · rename_i a ha
              split
              · rfl
              · rename_i o1 h1
                rw [ih o1 (fun d hd => h d (.tail _ hd))]
                unfold Obj.setAttr at h1
                rw [if_neg (by rw [fromCk_typ ha]; exact h c (.head _))] at h1
                injection h1 with h1
                rw [← h1]
        exact this tm o (fun c hc e => (hn c hc).2 (by rw [e]; unfold decisive; simp))
      unfold Token.getObjectAttrs Token.loggedIn
      simp only [hget, ho]
      have e1 : (applyTemplate o tm).2.isToken = o.isToken := by
        unfold Obj.isToken Obj.boolOr; rw [hff CKA_TOKEN (by unfold fixedAttrs; simp)]
      have e2 : (applyTemplate o tm).2.isPrivate = o.isPrivate := by
        unfold Obj.isPrivate Obj.boolOr; rw [hff CKA_PRIVATE (by unfold fixedAttrs; simp)]
      rw [e1, e2]
      split
      · rfl
      · apply getAttributes_congr hcls
        intro ty hty
        rcases hty with hty | hty
        · exact hf ty (fun c hc e => (hn c hc).1 (e ▸ hty))
        · refine hfd ty ?_
          unfold decisive
          simp only [List.mem_cons, List.not_mem_nil, or_false]
          exact hty
  · rename_i hno
    split
    · rfl
    split
    · rfl
    split
    · rfl
    rename_i o0 ho0 F0 hF0
    split
    · rfl
    split
    · rfl
    rename_i hk
    have hfx := fixedTm hF0 hk
    have hu : ∀ c ∈ tm, c.typ ≠ CKA_UNIQUE_ID := fun c hc e => hfx c hc (by rw [e]; unfold fixedAttrs; simp)
    simp only
    rcases update_store (C := C) (e.sub 1) t.store t.handles n tm ok hu with ⟨h, _⟩ |
      ⟨u, o, F, tm', o1, t', hg, hfe, hF, htm, hset, z, hu', hst, h⟩
    · rw [h]
    · rw [h]
      simp only
      have snd : Sound1 (delAll o1 F.ephemeral) := sound1_delAll (sound1_setAllCk (fetchByUid_sound ok hfe) hset)
      obtain ⟨r, hr, hdec, hcl⟩ := fetch_decodes ok hfe hF
      obtain ⟨r', f', hr', hdec', hsame, _⟩ := write_back ok hdec snd.sound z hu' hst
      have ok' := (store_inv ok z hu' hst).1
      have htm' : ∀ c ∈ tm', ∃ c' ∈ tm, c'.typ = c.typ := by
        split at htm
        · exact updateEncrypt_mem htm
        · injection htm with htm; subst htm; exact fun c hc => ⟨c, hc, rfl⟩
      have keep : ∀ ty, (∀ c ∈ tm, c.typ ≠ ty) → ty ≠ CKA_OBJECT_VALIDATION_FLAGS → o.find ty = f' ty := by
        intro ty h1 h2
        symm
        apply hsame
        rw [find_delAll, if_neg (fun h => h2 (ephemeral_mem hF h)), setAllCk_find hset]
        intro c hc e
        obtain ⟨c', h3, h4⟩ := htm' c hc
        exact h1 c' h3 (h4.trans e)
      unfold Token.getObjectAttrs Token.loggedIn
      simp only [hno]
      have hall : ∀ ty, (q.map OutAttr.typ ++ if t.logged.isSome = true then [] else [CKA_TOKEN, CKA_PRIVATE]) = [] ∨
          ty ∈ fetchHints (q.map OutAttr.typ ++ if t.logged.isSome = true then [] else [CKA_TOKEN, CKA_PRIVATE]) →
          o.find ty = f' ty := by
        intro ty hty
        rcases hty with hty | hty
        · exfalso
          cases q with
          | nil => exact hq rfl
          | cons => cases hty
        · rcases mem_fetchHints_inv hty with hm | hm
          · rcases List.mem_append.1 hm with hm | hm
            · exact keep ty (fun c hc e => (hn c hc).1 (e ▸ hm)) (fun e => hv (e ▸ hm))
            · split at hm
              · cases hm
              · have : ty ∈ fixedAttrs ∧ ty ≠ CKA_OBJECT_VALIDATION_FLAGS := by
                  simp only [List.mem_cons, List.not_mem_nil, or_false] at hm
                  rcases hm with rfl | rfl
                  · exact ⟨by unfold fixedAttrs; simp, by decide⟩
                  · exact ⟨by unfold fixedAttrs; simp, by decide⟩
                exact keep ty (fun c hc e => hfx c hc (e ▸ this.1)) this.2
          · refine keep ty (fun c hc e => (hn c hc).2 (e ▸ hm)) ?_
            rintro rfl
            exact absurd hm (by decide)
      rcases fetch_same (C := C) (a := t.store) (b := { t.store with db := { t.store.db with objs := t' } }) ok ok' rfl hg hg
        hr hr' hdec hdec' hcl hall e' with ⟨x, y, e1, e2, hs⟩ | ⟨k, e1, e2⟩
      · rw [e1, e2]
        simp only
        have e3 : y.isToken = x.isToken := by unfold Obj.isToken Obj.boolOr; rw [hs.find]
        have e4 : y.isPrivate = x.isPrivate := by unfold Obj.isPrivate Obj.boolOr; rw [hs.find]
        rw [e3, e4]
        split
        · rfl
        · exact (getAttributes_congr hs.cls (fun ty _ => hs.find ty)).symm
      · rw [e1, e2]

end

section
variable (M : Mechs) (C : Crypto) (O : Oracle)

/-- C_SetAttributeValue with CKA_TOKEN, CKA_PRIVATE, CKA_MODIFIABLE or CKA_UNIQUE_ID anywhere in the template, or
CKA_COPYABLE true, fails and changes nothing: neither the named attributes nor the others in the template. -/
theorem C49_fixed (d : List (Nat × Db)) (tr : Trace) (e : Env) (h n : Nat) (tm : Template)
    (hc : ∃ c ∈ tm, refusedEntry c) :
    ∃ r, step M C O e (after M C O d tr) (.sess h (.setAttr n tm)) = (.err r, after M C O d tr) := by
  have hi : Inv (after M C O d tr) := inv_reach M O d tr
  have hv : HInv (after M C O d tr) := hinv_reach M O d tr
  generalize after M C O d tr = s at *
  unfold step
  simp only
  cases hg : s.getSession h with
  | error r => exact ⟨r, rfl⟩
  | ok p =>
    obtain ⟨i, sl, x⟩ := p
    obtain ⟨_, hm, hs, hx⟩ := getSession_ok hg
    have : ∃ r, fnSetAttr C e x sl.token n tm = (.error r, sl.token) := by
      unfold fnSetAttr
      repeat' (split; · exact ⟨_, rfl⟩)
      exact setAttrs_refuses _ _ (hv i sl hs).ok.nd n tm hc
    obtain ⟨r, hr⟩ := this
    refine ⟨r, ?_⟩
    simp only [sessStep, hr]
    rw [setSlot_same hi hs hx]
    rfl

/-- C_GetAttributeValue after C_SetAttributeValue answers as before, if it does so on the token. -/
theorem setAttr_answers {s : St} (hi : Inv s) (e e' : Env) (h n h' m : Nat) (tm : Template) (q : List OutAttr)
    (hc : ∀ i sl x, s.getSession h = .ok (i, sl, x) → onSlot M C O s h' i →
      (fnSetAttr C e x sl.token n tm).2.getObjectAttrs C e' m q = sl.token.getObjectAttrs C e' m q ∧
      (fnSetAttr C e x sl.token n tm).2.info = sl.token.info) :
    (step M C O e' (step M C O e s (.sess h (.setAttr n tm))).2 (.sess h' (.getAttr m q))).1 =
      (step M C O e' s (.sess h' (.getAttr m q))).1 := by
  have hi' : Inv (step M C O e s (.sess h (.setAttr n tm))).2 := inv_step M O e s _ hi
  cases hg : s.getSession h with
  | error r =>
    have : (step M C O e s (.sess h (.setAttr n tm))).2 = s := by
      unfold step; simp only [hg]
    rw [this]
  | ok p =>
    obtain ⟨i, sl, x⟩ := p
    obtain ⟨hrdy, hm, hs, hx⟩ := getSession_ok hg
    have hstep : (step M C O e s (.sess h (.setAttr n tm))).2 =
        s.setSlot i ⟨(fnSetAttr C e x sl.token n tm).2, AMap.modify sl.sessions h fun _ => x⟩ := by
      unfold step; simp only [hg]; rfl
    have ans : ∀ (s : St) j sl' x', s.getSession h' = .ok (j, sl', x') →
        (step M C O e' s (.sess h' (.getAttr m q))).1 = if !sl'.token.isInitialized then .err .tokenNotInitialized
          else .attrs (sl'.token.getObjectAttrs C e' m q).1 (sl'.token.getObjectAttrs C e' m q).2 := by
      intro s j sl' x' hg
      unfold step
      simp only [hg, sessStep]
      split <;> rfl
    rw [hstep] at hi' ⊢
    cases hm' : AMap.get s.smap h' with
    | none =>
      have e1 : s.getSession h' = .error .sessionHandleInvalid := by
        unfold St.getSession St.getSessionSlot; simp [hrdy, hm']
      have e2 : (s.setSlot i ⟨(fnSetAttr C e x sl.token n tm).2, AMap.modify sl.sessions h fun _ => x⟩).getSession h' =
          .error .sessionHandleInvalid := by
        have : (s.setSlot i ⟨(fnSetAttr C e x sl.token n tm).2, AMap.modify sl.sessions h fun _ => x⟩).smap = s.smap := rfl
        have r : (s.setSlot i ⟨(fnSetAttr C e x sl.token n tm).2, AMap.modify sl.sessions h fun _ => x⟩).ready = s.ready := rfl
        unfold St.getSession St.getSessionSlot; rw [this, r]; simp [hrdy, hm']
      unfold step
      simp only [e1, e2]
    | some j =>
      obtain ⟨sl1, x1, hg1, hs1, _⟩ := getSession_live hi hm'
      obtain ⟨sl2, x2, hg2, hs2, _⟩ := getSession_live hi' (i := j) hm'
      rw [ans _ _ _ _ hg1, ans _ _ _ _ hg2]
      rw [get_setSlot hs] at hs2
      split at hs2
      · rename_i e0
        subst e0
        obtain ⟨c1, c2⟩ := hc _ _ _ hg ((onSlot_iff hi).2 hm')
        rw [hs1] at hs
        injection hs with hs
        subst hs
        injection hs2 with hs2
        subst hs2
        rw [c1]
        have : (fnSetAttr C e x sl1.token n tm).2.isInitialized = sl1.token.isInitialized := by
          unfold Token.isInitialized; rw [c2]
        simp only [this]
      · rw [hs1] at hs2
        injection hs2 with hs2
        subst hs2
        rfl

theorem fnSetAttr_alike {s : St} (hv : HInv s) (ht : TInv s) {i : Nat} {sl : Slot} (hs : AMap.get s.slots i = some sl)
    (e : Env) (x : Session) (n : Nat) (tm : Template) : AlikeBut n sl.token (fnSetAttr C e x sl.token n tm).2 := by
  unfold fnSetAttr
  repeat' (split; · exact .refl n (ht.slots i sl hs))
  exact setAttrs_alike _ _ _ _ (hv i sl hs).ok.hs (ht.slots i sl hs)

/-- Whatever C_SetAttributeValue on object `n` of slot `i` answers, C_GetAttributeValue answers as before for every
object but `n` (every handle on every other slot): on every session, in every environment. -/
theorem C49_others (d : List (Nat × Db)) (hd : ∀ p ∈ d, TblOk p.2.objs) (tr : Trace) (e e' : Env) (h n h' m : Nat)
    (tm : Template) (q : List OutAttr)
    (hne : m ≠ n ∨ ∀ i, onSlot M C O (after M C O d tr) h i → ¬ onSlot M C O (after M C O d tr) h' i) :
    (step M C O e' (step M C O e (after M C O d tr) (.sess h (.setAttr n tm))).2 (.sess h' (.getAttr m q))).1 =
      (step M C O e' (after M C O d tr) (.sess h' (.getAttr m q))).1 := by
  have hi : Inv (after M C O d tr) := inv_reach M O d tr
  have hv : HInv (after M C O d tr) := hinv_reach M O d tr
  have ht : TInv (after M C O d tr) := tinv_reach M O hd tr
  generalize after M C O d tr = s at *
  apply setAttr_answers M C O hi
  intro i sl x hg hon
  obtain ⟨hrdy, hm, hs, hx⟩ := getSession_ok hg
  have alike := fnSetAttr_alike C hv ht hs e x n tm
  have hmn : m ≠ n := by
    rcases hne with hne | hne
    · exact hne
    · exact absurd hon (hne _ ((onSlot_iff hi).2 hm))
  exact ⟨alike.getAttrs hmn _ _, alike.info⟩

/-- Whatever C_SetAttributeValue answers, C_GetAttributeValue also answers as before for attributes of the same object
that the template does not name, if the template names none of the five attributes that decide what may be read. -/
theorem C49_unnamed (d : List (Nat × Db)) (hd : ∀ p ∈ d, TblOk p.2.objs) (tr : Trace) (e e' : Env) (h n h' : Nat)
    (tm : Template) (q : List OutAttr) (hq : q ≠ []) (hv : CKA_OBJECT_VALIDATION_FLAGS ∉ q.map OutAttr.typ)
    (hn : ∀ c ∈ tm, c.typ ∉ q.map OutAttr.typ ∧ c.typ ∉ decisive) :
    (step M C O e' (step M C O e (after M C O d tr) (.sess h (.setAttr n tm))).2 (.sess h' (.getAttr n q))).1 =
      (step M C O e' (after M C O d tr) (.sess h' (.getAttr n q))).1 := by
  have hi : Inv (after M C O d tr) := inv_reach M O d tr
  have hh : HInv (after M C O d tr) := hinv_reach M O d tr
  have ht : TInv (after M C O d tr) := tinv_reach M O hd tr
  generalize after M C O d tr = s at *
  apply setAttr_answers M C O hi
  intro i sl x hg hon
  obtain ⟨hrdy, hm, hs, hx⟩ := getSession_ok hg
  refine ⟨?_, (fnSetAttr_alike C hh ht hs e x n tm).info⟩
  unfold fnSetAttr
  repeat' (split; · rfl)
  exact setAttrs_own _ _ _ _ _ (ht.slots i sl hs) q hq hv hn

end

/-! ## Cases -/

/-- After `exStart`: the user logs in, creates a data object in memory (8) and one on the token (9). -/
def exC49 : Trace := exStart ++
  [(exEnv 6, .login 1 CKU_USER exPin),
   (exEnv 7, .sess 1 (.createObject exDataTemplate)),
   (exEnv 8, .sess 1 (.createObject (.ofBool CKA_TOKEN true :: exDataTemplate)))]

/-- The template names the label; the value is not named. -/
example : (∀ c ∈ [CkAttr.mk' CKA_LABEL [122]], c.typ ∉ [OutAttr.mk CKA_VALUE false 8 []].map OutAttr.typ ∧ c.typ ∉ decisive) ∧
    refusedEntry (.ofBool CKA_PRIVATE true) := ⟨by decide, .inl (by decide)⟩

set_option maxRecDepth 10000 in
/-- The label changes, the value and the other object do not; CKA_PRIVATE is refused and the label with it. -/
example : exOuts (exC49 ++ [(exEnv 9, .sess 1 (.setAttr 9 [.mk' CKA_LABEL [122]])),
    (exEnv 10, .sess 1 (.getAttr 9 [⟨CKA_LABEL, false, 2, [0, 0]⟩, ⟨CKA_VALUE, false, 3, [0, 0, 0]⟩])),
    (exEnv 11, .sess 1 (.getAttr 8 [⟨CKA_LABEL, false, 2, [0, 0]⟩])),
    (exEnv 12, .sess 1 (.setAttr 9 [.mk' CKA_LABEL [99], .ofBool CKA_PRIVATE true])),
    (exEnv 13, .sess 1 (.getAttr 9 [⟨CKA_LABEL, false, 2, [0, 0]⟩]))]) =
    exOuts exC49 ++ [.ok, .attrs (.ok ()) [⟨CKA_LABEL, false, 1, [122, 0]⟩, ⟨CKA_VALUE, false, 3, [1, 2, 3]⟩],
      .attrs (.ok ()) [⟨CKA_LABEL, false, 2, [97, 98]⟩], .err .attrReadOnly,
      .attrs (.ok ()) [⟨CKA_LABEL, false, 1, [122, 0]⟩]] := by decide +kernel

/-- C_SetAttributeValue that answers an error leaves everything as it was, unless the object is kept in memory. -/
theorem C49_failed_partial (M : Mechs) (C : Crypto) (O : Oracle) (d : List (Nat × Db)) (hd : ∀ p ∈ d, TblOk p.2.objs)
    (tr : Trace) (e : Env) (h n : Nat) (tm : Template) (r : Rv)
    (hs : ∀ i, onSlot M C O (after M C O d tr) h i → sessionObj (after M C O d tr) i n = none)
    (hr : (step M C O e (after M C O d tr) (.sess h (.setAttr n tm))).1 = .err r) :
    (step M C O e (after M C O d tr) (.sess h (.setAttr n tm))).2 = after M C O d tr := by
  have hi : Inv (after M C O d tr) := inv_reach M O d tr
  have ht : TInv (after M C O d tr) := tinv_reach M O hd tr
  generalize after M C O d tr = s at *
  unfold step at hr ⊢
  simp only at hr ⊢
  cases hg : s.getSession h with
  | error r => rfl
  | ok p =>
    obtain ⟨i, sl, x⟩ := p
    obtain ⟨_, hm, hsl, hx⟩ := getSession_ok hg
    have ho : AMap.get sl.token.sess n = none := by
      have := hs i ((onSlot_iff hi).2 hm)
      unfold sessionObj at this
      rw [hsl] at this
      exact this
    rw [hg] at hr
    have hr' : ∃ r, (fnSetAttr C e x sl.token n tm).1 = .error r := by
      simp only [sessStep] at hr
      cases hz : (fnSetAttr C e x sl.token n tm).1 with
      | error r => exact ⟨r, rfl⟩
      | ok u => rw [hz] at hr; cases hr
    have : (fnSetAttr C e x sl.token n tm).2 = sl.token := by
      revert hr'
      unfold fnSetAttr
      repeat' (split; · intro _; rfl)
      unfold Token.setObjectAttrs
      rw [ho]
      simp only
      repeat' (split; · intro _; rfl)
      rename_i F hF _ _ hk
      rcases update_store (C := C) ((e.sub 1).sub 1) sl.token.store sl.token.handles n tm (ht.slots i sl hsl)
        (checkSet_noUid hF hk) with ⟨h1, _⟩ | ⟨_, _, _, _, _, _, _, _, _, _, _, _, _, _, h1⟩
      · intro _; rw [h1]
      · rw [h1]; rintro ⟨r, hr⟩; cases hr
    simp only [sessStep, this]
    rw [setSlot_same hi hsl hx]

/-- Finding: on a session object a failed call has already changed the attributes before the offending entry.  Here the
answer is CKR_ATTRIBUTE_VALUE_INVALID and the label is changed; the same call on the token object changes nothing. -/
theorem C49_failed_violation : ∃ tr e n tm q,
    (step exMechs exCrypto exOracle e (exRun tr) (.sess 1 (.setAttr n tm))).1 = .err .attrValueInvalid ∧
    (step exMechs exCrypto exOracle e (exRun tr) (.sess 1 (.getAttr n q))).1 =
      .attrs (.ok ()) [⟨CKA_LABEL, false, 2, [97, 98]⟩] ∧
    (step exMechs exCrypto exOracle e (step exMechs exCrypto exOracle e (exRun tr) (.sess 1 (.setAttr n tm))).2
      (.sess 1 (.getAttr n q))).1 = .attrs (.ok ()) [⟨CKA_LABEL, false, 1, [122, 0]⟩] := by
  refine ⟨exC49, exEnv 9, 8, [.mk' CKA_LABEL [122], .mk' CKA_DESTROYABLE [1, 1]], [⟨CKA_LABEL, false, 2, [0, 0]⟩], ?_⟩
  set_option maxRecDepth 10000 in decide +kernel

set_option maxRecDepth 10000 in
example : sessionObj (exRun exC49) 7 9 = none ∧ exOuts (exC49 ++ [
    (exEnv 9, .sess 1 (.setAttr 9 [.mk' CKA_LABEL [122], .mk' CKA_DESTROYABLE [1, 1]])),
    (exEnv 9, .sess 1 (.getAttr 9 [⟨CKA_LABEL, false, 2, [0, 0]⟩]))]) = exOuts exC49 ++
    [.err .attrValueInvalid, .attrs (.ok ()) [⟨CKA_LABEL, false, 2, [97, 98]⟩]] := by decide +kernel

end Kry
