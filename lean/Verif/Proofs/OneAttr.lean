import Verif.Props.C49
import Verif.Proofs.KeyFacts

/-! Storing one attribute that is not encrypted: what is read afterwards. -/

namespace Kry
open Spec

variable {C : Crypto}

/-- Objects with the same attributes outside `P`. -/
def SameOut (P : Nat → Prop) (a b : Obj) : Prop := ∀ t, ¬ P t → a.find t = b.find t

theorem decryptValue_det {e e' : Env} {a : Aci} {u v p q : Bytes} (h : a.decryptValue C e u v = .ok p)
    (h' : a.decryptValue C e' u v = .ok q) : p = q := by
  unfold Aci.decryptValue at h h'
  split at h
  · rename_i k hk
    rw [hk] at h'
    simp only at h'
    unfold decryptData at h h'
    repeat' split at h
    all_goals first | (cases h; done) | skip
    all_goals (repeat' split at h')
    all_goals first | (cases h'; done) | skip
    all_goals simp_all
  · cases h

theorem decrypt_det {P : Nat → Prop} {e e' : Env} {ac : Aci} {u : Bytes} {ts : List Nat} {i j : Nat} {a b a' b' : Obj}
    (hp : ∀ t ∈ ts, ¬ P t) (h : SameOut P a b) (ha : decryptLoop C e ac u ts i a = .ok a')
    (hb : decryptLoop C e' ac u ts j b = .ok b') : SameOut P a' b' := by
  induction ts generalizing i j a b with
  | nil => injection ha with ha; injection hb with hb; rw [← ha, ← hb]; exact h
  | cons t ts ih =>
    have hp' : ∀ t ∈ ts, ¬ P t := fun t ht => hp t (.tail _ ht)
    unfold decryptLoop at ha hb
    rw [← h t (hp t (.head _))] at hb
    cases hx : a.find t with
    | none =>
      simp only [hx] at ha hb
      exact ih hp' h ha hb
    | some x =>
      simp only [hx] at ha hb
      split at ha
      · cases ha
      rename_i p hpv
      split at ha
      · cases ha
      rename_i a1 ha1
      split at hb
      · cases hb
      rename_i q hqv
      split at hb
      · cases hb
      rename_i b1 hb1
      have := decryptValue_det hpv hqv
      subst this
      refine ih hp' ?_ ha hb
      intro t' ht'
      rw [find_setAttr ha1, find_setAttr hb1, h t' ht']

/-- Types that no factory encrypts and that do not choose the factory. -/
def freeTy (t : Nat) : Prop := plainTy t ∧ t ≠ CKA_CLASS ∧ t ≠ CKA_KEY_TYPE ∧ t ≠ CKA_CERTIFICATE_TYPE

/-- Reading an object of which some free attributes were rewritten. -/
theorem fetch_but {P : Nat → Prop} (hP : ∀ t, P t → freeTy t) {a b : Store} (oka : TblOk a.db.objs) (okb : TblOk b.db.objs)
    (hc : a.aci = b.aci) {hs : Handles} {n : Nat} {u : Bytes} (hg : hs.get n = some u) {e e' : Env} (q : quiet e') {x o : Obj}
    {e0 : Env} (hx : a.fetch C e hs n [] = .ok x) (ho : a.db.fetchByUid e0 u [] = .ok o)
    {r' : List (Nat × DbVal)} (hr' : rowsOf b.db.objs u = some r') {f' : Nat → Option Attr} (hd' : Decodes r' f')
    (hf : ∀ t, ¬ P t → f' t = o.find t) :
    ∃ y, b.fetch C e' hs n [] = .ok y ∧ SameOut P x y ∧ ∀ t, P t → y.find t = f' t := by
  unfold Store.fetch at hx ⊢
  rw [hg] at hx ⊢
  have h0 : fetchHints [] = [] := by unfold fetchHints; rfl
  simp only [h0] at hx ⊢
  split at hx
  · cases hx
  rename_i o2 ho2
  split at hx
  · cases hx
  rename_i F hF
  have same : ∀ t, o2.find t = o.find t := by
    obtain ⟨r, hr, hn, hg', hd⟩ := fetchByUid_ok oka ho
    obtain ⟨r2, hr2, hn2, hg2, hd2⟩ := fetchByUid_ok oka ho2
    rw [hr] at hr2; injection hr2 with hr2; subst hr2
    rw [hd] at hd2; injection hd2 with hd2; rw [hd2]; exact fun _ => rfl
  have hcls : o2.find CKA_CLASS ≠ none := by
    obtain ⟨_, _, _, h⟩ := fetch_decodes oka ho2 hF
    exact h
  have np : ∀ t, t = CKA_CLASS ∨ t = CKA_KEY_TYPE ∨ t = CKA_CERTIFICATE_TYPE → ¬ P t := by
    intro t ht hp
    obtain ⟨_, h1, h2, h3⟩ := hP t hp
    rcases ht with h | h | h
    · exact h1 h
    · exact h2 h
    · exact h3 h
  have hcls' : f' CKA_CLASS ≠ none := by rw [hf _ (np _ (by simp)), ← same]; exact hcls
  obtain ⟨y, hy, hyc, hyf⟩ := fetchByUid_rows okb hr' hd' hcls' (e := e'.sub 0) (quiet_sub q 0 []) (hints := []) (fun _ h => nomatch h)
    (fun h => absurd rfl h)
  have hyf' : ∀ t, y.find t = f' t := fun t => by rw [hyf, if_pos (.inl rfl)]
  have sb : SameOut P o2 y := fun t ht => by rw [hyf', hf t ht, same]
  have hFy : objFactory y = .ok F := by
    rw [← hF]
    exact (objFactory_congr (sb _ (np _ (by simp))) (sb _ (np _ (by simp))) (sb _ (np _ (by simp)))).symm
  rw [hy]
  simp only [hFy]
  have avoid : ∀ t ∈ F.sensitive, ¬ P t := fun t ht hp => (hP t hp).1.2 _ _ hF ht
  rw [← hc]
  by_cases henc : a.aci.encrypt = true
  · simp only [if_pos henc] at hx ⊢
    split at hx
    · cases hx
    rename_i x1 hx1
    injection hx with hx
    obtain ⟨y1, hy1⟩ := decryptLoop_sub (C := C) (e' := e'.sub 1) (quiet_sub q 1) (j := 0) (x := y) hx1 (fun t ht => .inr (sb t (avoid t ht)).symm)
    rw [hy1]
    refine ⟨_, rfl, ?_, ?_⟩
    · intro t ht
      have := decrypt_det avoid sb hx1 hy1 t ht
      rw [← hx]
      exact this
    · intro t ht
      have := decryptLoop_find hy1 (fun h => avoid t h ht)
      rw [← hyf' t, ← this]
      rfl
  · simp only [if_neg henc] at hx ⊢
    injection hx with hx
    refine ⟨_, rfl, ?_, fun t _ => (hyf' t)⟩
    intro t ht
    rw [← hx]
    exact sb t ht

theorem updateEncrypt_free {e : Env} {a : Aci} {u : Bytes} {ts : List Nat} {i : Nat} {c : CkAttr} (h : c.typ ∉ ts) :
    updateEncrypt C e a u ts i [c] = .ok [c] := by
  induction ts generalizing i with
  | nil => rfl
  | cons t ts ih =>
    unfold updateEncrypt
    have : ([c].find? fun c => c.typ == t) = none := by
      rw [List.find?_eq_none]
      intro x hx
      simp only [List.mem_singleton] at hx
      subst hx
      simp only [beq_iff_eq]
      rintro rfl
      exact h (.head _)
    rw [this]
    exact ih (fun h' => h (.tail _ h'))

/-- The attributes that storing one value may change. -/
def oneOr (ty : Nat) (t : Nat) : Prop := t = ty ∨ t = CKA_OBJECT_VALIDATION_FLAGS

theorem free_flags : freeTy CKA_OBJECT_VALIDATION_FLAGS :=
  ⟨plain_of (by decide) (by decide +kernel), by decide, by decide, by decide⟩

/-- A value that was stored is read back, and nothing else about the object has changed. -/
theorem setOne {t t' : Token} (ok : TblOk t.store.db.objs) {e e0 e' : Env} (q : quiet e') {n ty : Nat} {v : Bytes} {o : Obj} (hty : freeTy ty)
    (hne : ty ≠ CKA_UNIQUE_ID ∧ ty ≠ CKA_TOKEN ∧ ty ≠ CKA_PRIVATE ∧ ty ≠ CKA_OBJECT_VALIDATION_FLAGS)
    (hck : Attr.fromCk (.mk' ty v) = .ok (Attr.ofBytes ty v))
    (h : t.setObjectAttrs C e n [.mk' ty v] = (.ok (), t')) (hg : t.getObjectByHandle C e0 n = .ok o) :
    ∃ o', t'.getObjectByHandle C e' n = .ok o' ∧ o'.find ty = some (Attr.ofBytes ty v) ∧ SameOut (oneOr ty) o o' := by
  unfold Token.getObjectByHandle Token.loggedIn at hg ⊢
  unfold Token.setObjectAttrs at h
  split at h
  · rename_i o1 ho1
    rw [ho1] at hg
    simp only at hg
    split at h
    · cases h
    rename_i F hF
    generalize hso : setObjectAttributes F o1 [.mk' ty v] = p at h
    obtain ⟨r, o3⟩ := p
    simp only [Prod.mk.injEq] at h
    obtain ⟨rfl, rfl⟩ := h
    unfold setObjectAttributes at hso
    split at hso
    · simp only [Prod.mk.injEq] at hso; cases hso.1
    split at hso
    · simp only [Prod.mk.injEq] at hso; cases hso.1
    unfold applyTemplate at hso
    rw [hck] at hso
    simp only at hso
    split at hso
    · simp only [Prod.mk.injEq] at hso; cases hso.1
    rename_i o2 ho2
    unfold applyTemplate at hso
    simp only [Prod.mk.injEq] at hso
    obtain ⟨_, rfl⟩ := hso
    have hget : AMap.get (AMap.modify t.sess n fun _ => o2) n = some o2 := by
      rw [AMap.get_modify, if_pos rfl, ho1]; rfl
    have hfo : o = o1 := by
      split at hg
      · cases hg
      · injection hg with hg; exact hg.symm
    have f2 : ∀ t, o2.find t = if ty = t then some (Attr.ofBytes ty v) else o1.find t := fun t => find_setAttr ho2 t
    have e1 : o2.isToken = o1.isToken := by
      unfold Obj.isToken Obj.boolOr; rw [f2, if_neg hne.2.1]
    have e2 : o2.isPrivate = o1.isPrivate := by
      have hcls : o2.cls = o1.cls := by
        unfold Obj.setAttr at ho2
        rw [if_neg (show ¬ (Attr.ofBytes ty v).typ = CKA_CLASS from hty.2.1)] at ho2
        injection ho2 with ho2
        rw [← ho2]
      unfold Obj.isPrivate Obj.boolOr; rw [f2, if_neg hne.2.2.1]
    simp only [hget]
    rw [e1, e2]
    split at hg
    · cases hg
    · rename_i hl
      rw [if_neg hl]
      refine ⟨o2, rfl, by rw [f2, if_pos rfl], ?_⟩
      intro t ht
      rw [hfo, f2, if_neg (fun h => ht (.inl h.symm))]
  · rename_i hno
    rw [hno] at hg
    split at h
    · cases h
    rename_i hlog
    split at h
    · cases h
    split at h
    · cases h
    rename_i o0 ho0 F0 hF0
    split at h
    · cases h
    split at h
    · cases h
    simp only [Prod.mk.injEq] at h
    obtain ⟨h1, h2⟩ := h
    rcases update_store (C := C) (e.sub 1) t.store t.handles n [.mk' ty v] ok
      (fun c hc => by simp only [List.mem_singleton] at hc; subst hc; exact hne.1) with ⟨_, r, hr⟩ |
      ⟨u, ob, F, tm', o1, tb, hgu, hfe, hF, htm, hset, z, hu', hst, hup⟩
    · rw [hr] at h1; cases h1
    have htm' : tm' = [.mk' ty v] := by
      split at htm
      · rw [updateEncrypt_free (hty.1.2 _ _ hF)] at htm; injection htm with htm; exact htm.symm
      · injection htm with htm; exact htm.symm
    subst htm'
    have f1 : ∀ t, o1.find t = if ty = t then some (Attr.ofBytes ty v) else ob.find t := by
      intro t
      unfold setAllCk at hset
      rw [hck] at hset
      simp only at hset
      split at hset
      · cases hset
      rename_i o2 ho2
      unfold setAllCk at hset
      injection hset with hset
      rw [← hset]
      exact find_setAttr ho2 t
    have snd : Sound1 (delAll o1 F.ephemeral) := sound1_delAll (sound1_setAllCk (fetchByUid_sound ok hfe) hset)
    obtain ⟨r, hr, hdec, hcl⟩ := fetch_decodes ok hfe hF
    obtain ⟨r', f', hr', hdec', hsame, hnew⟩ := write_back ok hdec snd.sound z hu' hst
    have ok' := (store_inv ok z hu' hst).1
    have hf : ∀ t, ¬ oneOr ty t → f' t = ob.find t := by
      intro t ht
      apply hsame
      rw [find_delAll, if_neg (fun h => ht (.inr (ephemeral_mem hF h))), f1, if_neg (fun h => ht (.inl h.symm))]
    have hty' : f' ty = some (Attr.ofBytes ty v) := by
      rcases hnew ty (Attr.ofBytes ty v) (by
        rw [find_delAll, if_neg (fun h => hne.2.2.2 (ephemeral_mem hF h)), f1, if_pos rfl]) with h | h
      · exact h
      · exact absurd h (by unfold encodeAttr; intro h; cases h)
    rw [hup] at h2
    simp only at hg
    subst h2
    simp only [hno]
    split at hg
    · cases hg
    rename_i x hx
    split at hg
    · cases hg
    injection hg with hg
    subst hg
    have hP : ∀ t, oneOr ty t → freeTy t := by
      rintro t (rfl | rfl)
      · exact hty
      · exact free_flags
    obtain ⟨y, hy, hsb, hyP⟩ := fetch_but (C := C) hP (a := t.store) (b := { t.store with db := { t.store.db with objs := tb } })
      ok ok' rfl hgu q hx hfe hr' hdec' hf
    rw [hy]
    simp only
    have hl : t.logged.isSome = true := by unfold Token.loggedIn at hlog; simpa [Option.isSome_iff_ne_none] using hlog
    rw [if_neg (by simp [hl])]
    exact ⟨y, rfl, by rw [hyP ty (.inl rfl), hty'], hsb⟩

/-- What is read does not depend on the faults that did not happen. -/
theorem getObject_det {t : Token} (ok : TblOk t.store.db.objs) {e e' : Env} {n : Nat} {o o' : Obj} (h : t.getObjectByHandle C e n = .ok o)
    (h' : t.getObjectByHandle C e' n = .ok o') : SameOut (fun _ => False) o o' := by
  unfold Token.getObjectByHandle at h h'
  cases hs : AMap.get t.sess n with
  | some x =>
    simp only [hs] at h h'
    split at h
    · cases h
    split at h'
    · cases h'
    injection h with h; injection h' with h'; rw [← h, ← h']; exact fun _ _ => rfl
  | none =>
    simp only [hs] at h h'
    split at h
    · cases h
    rename_i x hx
    split at h'
    · cases h'
    rename_i y hy
    split at h
    · cases h
    split at h'
    · cases h'
    injection h with h; injection h' with h'; subst h h'
    unfold Store.fetch at hx hy
    cases hg : t.handles.get n with
    | none => rw [hg] at hx; cases hx
    | some u =>
      simp only [hg] at hx hy
      split at hx
      · cases hx
      rename_i a ha
      split at hx
      · cases hx
      rename_i F hF
      split at hy
      · cases hy
      rename_i b hb
      obtain ⟨r, hr, _, _, hd⟩ := fetchByUid_ok ok ha
      obtain ⟨r2, hr2, _, _, hd2⟩ := fetchByUid_ok ok hb
      rw [hr] at hr2; injection hr2 with hr2; subst hr2
      rw [hd] at hd2; injection hd2 with hd2; subst hd2
      rw [hF] at hy
      simp only at hy
      by_cases henc : t.store.aci.encrypt = true
      · simp only [if_pos henc] at hx hy
        split at hx
        · cases hx
        rename_i x1 hx1
        split at hy
        · cases hy
        rename_i y1 hy1
        have := decrypt_det (P := fun _ => False) (fun _ _ h => h) (fun _ _ => rfl) hx1 hy1
        injection hx with hx; injection hy with hy; rw [← hx, ← hy]
        exact this
      · simp only [if_neg henc] at hx hy
        injection hx with hx; injection hy with hy; rw [← hx, ← hy]
        exact fun _ _ => rfl

end Kry
