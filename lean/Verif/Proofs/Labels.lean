import Verif.Proofs.VaultStep
import Verif.Proofs.Kept

/-! # The texts of the token information -/

namespace Kry
open Spec

variable {C : Crypto}

/-- The four text fields. -/
def texts (i : TokInfo) : Bytes × Bytes × Bytes × Bytes := (i.label, i.manufacturer, i.model, i.serial)

/-- The part of a database the label is read from. -/
structure SameMeta (a b : Db) : Prop where
  nd : (AMap.keys a.metaT).Nodup → (AMap.keys b.metaT).Nodup
  row : AMap.get b.metaT .label = AMap.get a.metaT .label
  ready : b.ready = a.ready

theorem SameMeta.refl (a : Db) : SameMeta a a := ⟨id, rfl, rfl⟩
theorem SameMeta.trans {a b c : Db} (x : SameMeta a b) (y : SameMeta b c) : SameMeta a c :=
  ⟨y.nd ∘ x.nd, y.row.trans x.row, y.ready.trans x.ready⟩

/-- Texts, and the label on disk, are as before. -/
structure SameTxt (a b : Token) : Prop where
  db : SameMeta a.store.db b.store.db
  txt : texts b.info = texts a.info

theorem SameTxt.refl (a : Token) : SameTxt a a := ⟨.refl _, rfl⟩
theorem SameTxt.trans {a b c : Token} (x : SameTxt a b) (y : SameTxt b c) : SameTxt a c := ⟨x.db.trans y.db, y.txt.trans x.txt⟩

theorem Still.txt {a b : Token} (x : Still a b) : SameTxt a b :=
  ⟨⟨by rw [x.rows]; exact id, by rw [x.rows], x.ready⟩, by rw [x.info]⟩

theorem storeUser_meta (e : Env) (db : Db) (u : User) (a : AuthInfo) : SameMeta db (db.storeUser e u a).2 := by
  unfold Db.storeUser
  split
  · exact .refl _
  · split
    · exact .refl _
    · simp only
      refine ⟨fun h => ?_, ?_, rfl⟩
      · cases a.userData <;> cases a.defaultPin <;> (repeat' apply AMap.nodup_insert) <;> exact h
      · cases a.userData <;> cases a.defaultPin <;> simp [AMap.get_insert]

theorem authUser_meta (e : Env) (s : Store) (u : User) (pin : Bytes) (co : Bool) : SameMeta s.db (s.authUser C e u pin co).2.2.db := by
  unfold Store.authUser
  split
  · exact .refl _
  · simp only
    repeat' split
    all_goals first | exact .refl _ | exact storeUser_meta _ _ _ _

theorem setUserPin_meta (e : Env) (s : Store) (u : User) (pin : Bytes) : SameMeta s.db (s.setUserPin C e u pin).2.db := by
  unfold Store.setUserPin
  split
  · exact .refl _
  · exact storeUser_meta _ _ _ _

theorem unauth_meta (e : Env) (s : Store) (u : User) : SameMeta s.db (s.unauthUser e u).2.db := by
  unfold Store.unauthUser
  split <;> exact .refl _

theorem authUser_txt (e : Env) (t : Token) (u : User) (pin : Bytes) (co : Bool) : SameTxt t (t.authUser C e u pin co).2 := by
  unfold Token.authUser
  have a := authUser_meta (C := C) e t.store u pin co
  generalize t.store.authUser C e u pin co = p at a ⊢
  obtain ⟨r, f, st⟩ := p
  cases r <;> cases co <;> exact ⟨a, rfl⟩

theorem setPin_txt (e : Env) (t : Token) (w : Option User) (pin old : Bytes) : SameTxt t (t.setPin C e w pin old).2 := by
  unfold Token.setPin
  extract_lets ut
  clear_value ut
  cases ut with
  | none => simp only; split <;> exact .refl _
  | some u =>
    simp only
    have a : SameTxt t (if old ≠ [] then t.authUser C (e.sub 0) u old true else (.ok (), t)).2 := by
      split
      · exact authUser_txt _ _ _ _ _
      · exact .refl _
    generalize (if old ≠ [] then t.authUser C (e.sub 0) u old true else (.ok (), t)) = p at a ⊢
    obtain ⟨r, t1⟩ := p
    cases r with
    | error r => exact a
    | ok _ =>
      simp only
      have b := setUserPin_meta (C := C) (e.sub 1) t1.store u pin
      generalize t1.store.setUserPin C (e.sub 1) u pin = q at b ⊢
      obtain ⟨r, st⟩ := q
      cases r with
      | error r => exact ⟨a.db.trans b, a.txt⟩
      | ok _ => cases u <;> exact ⟨a.db.trans b, a.txt⟩

theorem login_txt (e : Env) (t : Token) (ut : Nat) (pin : Bytes) : SameTxt t (t.login C e ut pin).2 := by
  unfold Token.login
  repeat' split
  all_goals first | exact .refl _ | exact authUser_txt _ _ _ _ _

theorem logout_txt (e : Env) (t : Token) : SameTxt t (t.logout e).2 := by
  unfold Token.logout
  split
  · exact .refl _
  · rename_i u _
    simp only
    have a := unauth_meta e (t.clearPrivate).store u
    generalize Store.unauthUser e _ u = q at a ⊢
    obtain ⟨r, st⟩ := q
    cases r <;> exact ⟨a, rfl⟩

theorem act_txt {Z : Lic} {h : Nat} {D : Nat → Prop} {N : Obj → Prop} {a b : Token} (x : TAct C Z h D N a b) : SameTxt a b := by
  cases x with
  | insert e o _ hz hn => exact (act_still (.insert (D := fun _ => True) (N := fun _ => True) e o a hz trivial)).txt
  | destroy e n hd => exact (act_still (h := h) (.destroy (D := fun _ => True) (N := fun _ => True) e n a trivial)).txt
  | setAttrs e n tm hw => exact (act_still (h := h) (.setAttrs (D := fun _ => True) (N := fun _ => True) e n tm a trivial)).txt
  | search e tm => exact ⟨.refl _, rfl⟩
  | update e n tm _ hl hu hdd => exact (act_still (h := h) (.update (D := fun _ => True) (N := fun _ => True) e n tm a hl hu hdd)).txt
  | initPin e pin hp =>
    unfold fnInitPin
    split
    · exact .refl _
    · exact setPin_txt _ _ _ _ _
  | changePin e s old new hp hd =>
    unfold fnSetPin
    split
    · exact .refl _
    split
    · exact .refl _
    split
    · exact .refl _
    split
    · exact setPin_txt _ _ _ _ _
    have a1 := login_txt (C := C) (e.sub 0) a CKU_USER old
    generalize a.login C (e.sub 0) CKU_USER old = p at a1 ⊢
    obtain ⟨r, t1⟩ := p
    cases r with
    | error r => exact a1
    | ok _ =>
      simp only
      have a2 := setPin_txt (C := C) (e.sub 1) t1 none new old
      generalize t1.setPin C (e.sub 1) none new old = q at a2 ⊢
      obtain ⟨r, t2⟩ := q
      exact (a1.trans a2).trans (logout_txt _ _)

theorem builtins_info (e : Env) (cls ty : Nat) (l : List Nat) (t : Token) (k : Nat) : (t.insertBuiltins C e cls ty l k).2.info = t.info := by
  have one : ∀ (e : Env) (t : Token) (i : Nat), (t.insertBuiltin C e cls ty i).2.info = t.info := by
    intro e t i
    have ins : ∀ (o : Obj), (t.insertObject C e 0 o).2.info = t.info := by
      intro o
      unfold Token.insertObject
      simp only
      repeat' split
      all_goals rfl
    unfold Token.insertBuiltin
    split
    · rfl
    · split
      · rfl
      · rename_i o _
        have a := ins o
        generalize t.insertObject C e 0 o = p at a ⊢
        obtain ⟨r, t1⟩ := p
        cases r <;> exact a
  induction l generalizing t k with
  | nil => rfl
  | cons i l ih =>
    unfold Token.insertBuiltins
    have a := one (e.sub k) t i
    generalize t.insertBuiltin C (e.sub k) cls ty i = p at a ⊢
    obtain ⟨r, t1⟩ := p
    cases r with
    | error r => exact a
    | ok _ => exact (ih t1 (k + 1)).trans a

theorem internal_info (e : Env) (t : Token) : (t.internalInit C e).2.info = t.info := by
  unfold Token.internalInit
  have a := builtins_info (C := C) (e.sub 0) CKO_PROFILE CKA_PROFILE_ID Token.profiles t 0
  generalize t.insertBuiltins C (e.sub 0) CKO_PROFILE CKA_PROFILE_ID Token.profiles 0 = p at a ⊢
  obtain ⟨r, t1⟩ := p
  cases r with
  | error r => exact a
  | ok _ => exact (builtins_info _ _ _ _ _ _).trans a

theorem storeTokenInfo_meta (e : Env) (db : Db) (i : TokInfo) :
    ((db.storeTokenInfo e i).1 = .ok () → AMap.get (db.storeTokenInfo e i).2.metaT .label = some i.label) ∧
      ((AMap.keys db.metaT).Nodup → (AMap.keys (db.storeTokenInfo e i).2.metaT).Nodup) ∧ (db.storeTokenInfo e i).2.ready = db.ready := by
  unfold Db.storeTokenInfo
  split
  · exact ⟨nofun, id, rfl⟩
  · refine ⟨fun _ => by simp [AMap.get_insert], fun h => ?_, rfl⟩
    (repeat' apply AMap.nodup_insert) <;> exact h

/-- The fields have their widths. -/
def Spec.widths (i : TokInfo) : Prop :=
  i.label.length = 32 ∧ i.manufacturer.length = 32 ∧ i.model.length = 16 ∧ i.serial.length = 16

theorem copySized_length (s d : Bytes) : (copySized s d).length = d.length := by
  unfold copySized
  split
  · rfl
  · rename_i c h
    simp only
    have : 0 < s.length := by
      cases s with
      | nil => cases h
      | cons a l => simp
    repeat' split
    all_goals
      simp only [List.length_take, List.length_append, List.length_replicate]
      omega

theorem copySized_same {s d d' : Bytes} (h : s ≠ []) (hd : d.length = d'.length) : copySized s d = copySized s d' := by
  unfold copySized
  cases hs : s.getLast? with
  | none => exact absurd (List.getLast?_eq_none_iff.1 hs) h
  | some c => simp only [hd]

theorem widths_default : widths TokInfo.default := by unfold widths; decide +kernel

theorem hex_length (b : Bytes) : (hexEncode b).length = 2 * b.length := by
  unfold hexEncode
  induction b with
  | nil => rfl
  | cons a l ih => simp only [List.flatMap_cons, List.length_append, ih, List.length_cons, List.length_nil]; omega

/-- What `reinit` leaves, if it succeeds. -/
theorem reinit_info {e : Env} {s s' : Store} {i : TokInfo} (h : s.reinit C e = (.ok i, s')) :
    widths i ∧ (AMap.keys s'.db.metaT).Nodup ∧ s'.db.ready = true := by
  unfold Store.reinit at h
  generalize hq : s.db.reset (e.sub 0) = q at h
  obtain ⟨r, db⟩ := q
  cases r with
  | error r => cases h
  | ok _ =>
    have hdb : (AMap.keys db.metaT).Nodup ∧ db.ready = true := by
      unfold Db.reset at hq
      split at hq
      · cases hq
      · cases hq; exact ⟨List.nodup_nil, rfl⟩
    simp only at h
    generalize s.aci.reset (e.sub 1) = q at h
    obtain ⟨r, aci⟩ := q
    cases r with
    | error r => cases h
    | ok _ =>
      simp only at h
      have h2 : SameMeta db (Store.defaultSoPin C (e.sub 2) ⟨db, aci⟩).2.db := by
        unfold Store.defaultSoPin
        split
        · exact .refl _
        · exact storeUser_meta _ _ _ _
      generalize Store.defaultSoPin C (e.sub 2) ⟨db, aci⟩ = q at h h2
      obtain ⟨r, s2⟩ := q
      cases r with
      | error r => cases h
      | ok _ =>
        simp only at h h2
        have h3 : ∀ i s3, Store.defaultTokenInfo (e.sub 3) s2 = (.ok i, s3) →
            widths i ∧ (AMap.keys s3.db.metaT).Nodup ∧ s3.db.ready = true := by
          intro i s3 hd
          unfold Store.defaultTokenInfo at hd
          extract_lets i0 i1 i2 i3 at hd
          have hw0 : i2.label.length = 32 ∧ i2.manufacturer.length = 32 ∧ i2.model.length = 16 := by
            have := widths_default
            simp only [i2, i1, i0]
            split
            · exact ⟨this.1, this.2.1, this.2.2.1⟩
            · exact ⟨this.1, this.2.1, this.2.2.1⟩
          have hw : widths i3 := ⟨hw0.1, hw0.2.1, hw0.2.2, by simp only [i3]; rw [hex_length, rnd_len]⟩
          clear_value i3
          cases hf : ((e.sub 3).sub 0).fails with
          | some r => rw [hf] at hd; cases hd
          | none =>
            rw [hf] at hd
            simp only at hd
            obtain ⟨m1, m2, m3⟩ := storeTokenInfo_meta ((e.sub 3).sub 1) s2.db i3
            generalize s2.db.storeTokenInfo ((e.sub 3).sub 1) i3 = w at hd m1 m2 m3
            obtain ⟨r, db3⟩ := w
            cases r with
            | error r => cases hd
            | ok _ =>
              cases hd
              exact ⟨hw, m2 (h2.nd hdb.1), m3.trans (h2.ready.trans hdb.2)⟩
        generalize Store.defaultTokenInfo (e.sub 3) s2 = q at h h3
        obtain ⟨r, s3⟩ := q
        cases r with
        | error r => cases h
        | ok i3 =>
          simp only at h
          split at h
          · cases h
          · cases h
            exact h3 i3 s' rfl

/-- C_InitToken and the texts. -/
theorem initToken_txt (e : Env) (t : Token) (pin label : Bytes) :
    (widths t.info → widths (t.initToken C e pin label).2.info) ∧
    (label ≠ [] → (t.initToken C e pin label).1 = .ok () →
      (t.initToken C e pin label).2.info.label = copySized label (List.replicate 32 0) ∧
      (AMap.keys (t.initToken C e pin label).2.store.db.metaT).Nodup ∧ (t.initToken C e pin label).2.store.db.ready = true ∧
      AMap.get (t.initToken C e pin label).2.store.db.metaT .label = some (copySized label (List.replicate 32 0))) := by
  unfold Token.initToken
  have a : SameTxt t (if t.isInitialized then t.authUser C (e.sub 0) .so pin true else (.ok (), t)).2 := by
    split
    · exact authUser_txt _ _ _ _ _
    · exact .refl _
  generalize (if t.isInitialized then t.authUser C (e.sub 0) .so pin true else (.ok (), t)) = p at a ⊢
  obtain ⟨r, t1⟩ := p
  have aw : widths t.info → widths t1.info := by
    intro h
    have a := a.txt
    simp only [texts, Prod.mk.injEq] at a
    unfold widths
    rw [a.1, a.2.1, a.2.2.1, a.2.2.2]
    exact h
  cases r with
  | error r => exact ⟨aw, fun _ => nofun⟩
  | ok _ =>
    simp only
    have q := fun i s' => @reinit_info C (e.sub 1) t1.store s' i
    generalize t1.store.reinit C (e.sub 1) = p at q ⊢
    obtain ⟨r, st⟩ := p
    cases r with
    | error r => exact ⟨aw, fun _ => nofun⟩
    | ok info =>
      obtain ⟨q1, q2, q3⟩ := q info st rfl
      simp only
      have b := setPin_txt (C := C) (e.sub 2)
        { info := t1.info, handles := Handles.new, store := st, sess := [], logged := none, cfg := t1.cfg }
        (some User.so) pin []
      have b4 := (setPin_same (C := C) (e.sub 2)
        { info := t1.info, handles := Handles.new, store := st, sess := [], logged := none, cfg := t1.cfg }
        (some User.so) pin []).logged
      generalize Token.setPin C (e.sub 2) _ (some User.so) pin [] = w at b b4 ⊢
      obtain ⟨r, t2⟩ := w
      have bw : widths t.info → widths t2.info := by
        intro h
        have h := aw h
        have b := b.txt
        simp only [texts, Prod.mk.injEq] at b
        unfold widths
        rw [b.1, b.2.1, b.2.2.1, b.2.2.2]
        exact h
      have b2 := b.db.nd q2
      have b3 := b.db.ready.trans q3
      simp only at b2 b3 b4 ⊢
      split
      · exact ⟨bw, fun _ => nofun⟩
      · obtain ⟨m1, m2, m3⟩ := storeTokenInfo_meta (e.sub 3) t2.store.db { info with label := copySized label info.label }
        generalize t2.store.db.storeTokenInfo (e.sub 3) { info with label := copySized label info.label } = w at m1 m2 m3 ⊢
        obtain ⟨r, db⟩ := w
        cases r with
        | error r => exact ⟨bw, fun _ => nofun⟩
        | ok _ =>
          simp only at m1 m2 m3 ⊢
          have cw : widths ({ info with label := copySized label info.label } : TokInfo) :=
            ⟨(copySized_length _ _).trans q1.1, q1.2.1, q1.2.2.1, q1.2.2.2⟩
          have u := unauth_meta (e.sub 4) { db := db, aci := t2.store.aci } .so
          simp only [Token.fillInfo]
          generalize Store.unauthUser (e.sub 4) _ .so = v at u ⊢
          obtain ⟨r, st2⟩ := v
          cases r with
          | error r => exact ⟨fun _ => cw, fun _ => nofun⟩
          | ok _ =>
            simp only
            generalize hT : (Token.mk _ _ _ _ _ _) = T
            have hl : T.logged = none := by rw [← hT]; exact b4
            rw [internal_info, internal_store _ _ hl]
            subst hT
            refine ⟨fun _ => cw, fun hlab _ => ?_⟩
            have hc : copySized label info.label = copySized label (List.replicate 32 0) :=
              copySized_same hlab (by rw [q1.1]; rfl)
            refine ⟨hc, u.nd (m2 b2), u.ready.trans (m3.trans b3), ?_⟩
            exact u.row.trans ((m1 trivial).trans (congrArg some hc))

end Kry
