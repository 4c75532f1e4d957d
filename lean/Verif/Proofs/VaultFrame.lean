import Verif.Proofs.VaultInit

/-! # Calls that leave PINs alone, C_InitPIN and C_SetPIN, and opening a token -/

namespace Kry
open Spec

variable {C : Crypto}

/-- Everything PINs and master key depend on is as before. -/
structure Still (a b : Token) : Prop where
  rows : b.store.db.metaT = a.store.db.metaT
  ready : b.store.db.ready = a.store.db.ready
  aci : b.store.aci = a.store.aci
  info : b.info = a.info
  logged : b.logged = a.logged

theorem Still.refl (a : Token) : Still a a := ⟨rfl, rfl, rfl, rfl, rfl⟩
theorem Still.trans {a b c : Token} (x : Still a b) (y : Still b c) : Still a c :=
  ⟨y.rows.trans x.rows, y.ready.trans x.ready, y.aci.trans x.aci, y.info.trans x.info, y.logged.trans x.logged⟩

theorem Still.vault {a b : Token} (x : Still a b) {K : Bytes} {v : Nat} {π : Pins} (h : TVault C a K v π) :
    TVault C b K v π :=
  ⟨h.db.congr x.rows, x.aci ▸ h.aci, fun u hu => by rw [x.logged] at hu; rw [x.aci]; exact h.logged u hu⟩

theorem Still.inited {a b : Token} (x : Still a b) (h : Inited a.store.db) : Inited b.store.db := by
  unfold Inited at h ⊢
  rw [x.rows, x.ready]; exact h

theorem Still.init {a b : Token} (x : Still a b) : b.isInitialized = a.isInitialized := by
  rw [isInitialized_eq, isInitialized_eq, x.info]

/-- The parts of a store other than its objects. -/
structure StillS (a b : Store) : Prop where
  rows : b.db.metaT = a.db.metaT
  ready : b.db.ready = a.db.ready
  aci : b.aci = a.aci

theorem stillS_storeObj (e : Env) (s : Store) (o : Obj) : StillS s { s with db := (s.db.storeObj e o).2 } := by
  unfold Db.storeObj
  repeat' split
  all_goals exact ⟨rfl, rfl, rfl⟩

theorem stillS_store (e : Env) (s : Store) (h : Handles) (o : Obj) : StillS s (s.store C e h o).2.1 := by
  unfold Store.store
  repeat' split
  all_goals first
    | exact ⟨rfl, rfl, rfl⟩
    | (rename_i enc _
       simp only
       repeat' split
       all_goals first | exact ⟨rfl, rfl, rfl⟩ | exact stillS_storeObj _ _ _)

theorem stillS_update (e : Env) (s : Store) (h : Handles) (n : Nat) (t : Template) :
    StillS s (s.update C e h n t).2 := by
  unfold Store.update
  split
  · exact ⟨rfl, rfl, rfl⟩
  · split
    · exact ⟨rfl, rfl, rfl⟩
    · split
      · exact ⟨rfl, rfl, rfl⟩
      · extract_lets t'
        clear_value t'
        cases t' with
        | error r => exact ⟨rfl, rfl, rfl⟩
        | ok t' =>
          simp only
          split
          · exact ⟨rfl, rfl, rfl⟩
          · exact stillS_storeObj _ _ _

theorem stillS_remove (e : Env) (s : Store) (h : Handles) (n : Nat) : StillS s (s.remove e h n).2 := by
  unfold Store.remove Db.removeByUid
  split
  · exact ⟨rfl, rfl, rfl⟩
  · cases e.fails <;> exact ⟨rfl, rfl, rfl⟩

theorem act_still {h : Nat} {D : Nat → Prop} {N : Obj → Prop} {a b : Token} (x : TAct C .noPin h D N a b) :
    Still a b := by
  cases x with
  | insert e o hz hn =>
    unfold Token.insertObject
    split
    · split
      · exact .refl _
      · have := stillS_store (C := C) e a.store a.handles o
        generalize a.store.store C e a.handles o = p at this ⊢
        exact ⟨this.rows, this.ready, this.aci, rfl, rfl⟩
    · simp only
      repeat' split
      all_goals exact ⟨rfl, rfl, rfl, rfl, rfl⟩
  | destroy e n hd =>
    unfold Token.destroyObject
    repeat' split
    all_goals first
      | exact ⟨rfl, rfl, rfl, rfl, rfl⟩
      | (have := stillS_remove (e.sub 1) a.store a.handles n
         exact ⟨this.rows, this.ready, this.aci, rfl, rfl⟩)
  | setAttrs e n tm =>
    unfold Token.setObjectAttrs
    have hu := stillS_update (C := C) (e.sub 1) a.store a.handles n tm
    generalize a.store.update C (e.sub 1) a.handles n tm = p at hu ⊢
    obtain ⟨r, st⟩ := p
    simp only at hu ⊢
    repeat' split
    all_goals first
      | exact ⟨rfl, rfl, rfl, rfl, rfl⟩
      | exact ⟨hu.rows, hu.ready, hu.aci, rfl, rfl⟩
  | search e tm => exact ⟨rfl, rfl, rfl, rfl, rfl⟩
  | update e n tm hl hu hdd =>
    have := stillS_update (C := C) e a.store a.handles n tm
    exact ⟨this.rows, this.ready, this.aci, rfl, rfl⟩
  | initPin e pin hp => contradiction
  | changePin e s old new hp hd => contradiction

theorem acts_still {h : Nat} {D : Nat → Prop} {N : Obj → Prop} {a b : Token} (x : TActs C .noPin h D N a b) :
    Still a b := TActs.rel Still.refl (fun _ _ _ => Still.trans) (fun _ _ => act_still) x

theorem op_still (M : Mechs) (e : Env) (h : Nat) (c : OCall) (s : Session) (t : Token) :
    Still t (opStep M C e h c s t).2.2 :=
  acts_still (acts_opMade (D := fun _ => True) M e c s t fun _ _ => trivial)

theorem sess_still (O : Oracle) (e : Env) (h : Nat) (c : SCall) (s : Session) (t : Token)
    (h1 : ∀ p, c ≠ .initPin p) (h2 : ∀ p q, c ≠ .setPin p q) : Still t (sessStep C O e h c s t).2.2 :=
  acts_still (acts_sessMade (D := fun _ => True) O e c s t (fun _ _ => trivial)
    (fun hz => hz.elim (fun ⟨p, hp⟩ => h1 p hp) fun ⟨p, q, hp⟩ => h2 p q hp) fun _ _ _ _ _ _ _ _ _ => trivial)

/-! ## C_SetPIN and C_InitPIN -/

theorem fnInitPin_vault {e : Env} {t : Token} {K : Bytes} {v : Nat} {π : Pins} {pin : Bytes}
    (h : TVault C t K v π) :
    ∃ π', TVault C (fnInitPin C e t pin).2 K v π' ∧ Rest t (fnInitPin C e t pin).2 ∧
      ((fnInitPin C e t pin).1 ≠ .ok () → samePins π π' ∧ (quiet e → π' = π)) ∧
      ((fnInitPin C e t pin).1 = .ok () → t.logged = some .so ∧ ∃ π1, samePins π π1 ∧ (quiet e → π1 = π) ∧
        π' = setU π1 .user (some (pin, 0))) ∧
      (quiet e → t.logged = some .so → (fnInitPin C e t pin).1 = .ok ()) := by
  unfold fnInitPin
  by_cases hl : t.logged = some .so
  · simp only [ne_eq, hl, not_true, if_false]
    obtain ⟨⟨π', h1, h2, h3, h4⟩, h5, h6, h7⟩ :=
      token_setPin (e := e) (who := some .user) (pin := pin) (old := []) h (h.logged _ hl).2 rfl
    have q4 : quiet e → (t.setPin C e (some .user) pin []).1 = .ok () ∧ π' = setU π .user (some (pin, 0)) := by
      intro q
      have := h4 q
      unfold setPinP at this
      simp only [ne_eq, not_true, if_false] at this
      injection this with a b
      exact ⟨a, b⟩
    refine ⟨π', h1, h5, fun hn => ⟨h2 hn, fun q => absurd (q4 q).1 hn⟩, fun hok => ⟨trivial, ?_⟩, fun q _ => (q4 q).1⟩
    obtain ⟨π1, e1, e2⟩ := h3 hok
    by_cases q : quiet e
    · exact ⟨π, .refl _, fun _ => rfl, (q4 q).2⟩
    · exact ⟨π1, e1, fun q' => absurd q' q, e2⟩
  · simp only [ne_eq, hl, not_false_eq_true, if_true]
    exact ⟨π, h, .refl _, fun _ => ⟨.refl _, fun _ => rfl⟩, fun hok => (by cases hok), fun _ hn => hn.elim⟩

theorem setU_twice (π : Pins) (u : User) (x y : Option (Bytes × Nat)) : setU (setU π u x) u y = setU π u y := by
  funext w
  unfold setU
  split <;> rfl

theorem authP_ok {π π1 : Pins} {u : User} {pin : Bytes} (h : ((.ok () : Res Unit), π1) = authP C π u pin) :
    ∃ p n, π u = some (p, n) ∧ n < 10 ∧ C.pinKey pin = C.pinKey p ∧ π1 = setU π u (some (p, 0)) := by
  unfold authP at h
  cases hp : π u with
  | none => rw [hp] at h; injection h with h; cases h
  | some x =>
    obtain ⟨p, n⟩ := x
    rw [hp] at h
    simp only at h
    by_cases h1 : 10 ≤ n
    · rw [if_pos h1] at h; injection h with h; cases h
    · rw [if_neg h1] at h
      by_cases h2 : C.pinKey pin = C.pinKey p
      · rw [if_pos h2] at h
        injection h with _ h
        exact ⟨p, n, rfl, by omega, h2, h⟩
      · rw [if_neg h2] at h; injection h with h; cases h

theorem fnSetPin_vault {e : Env} {s : Session} {t : Token} {K : Bytes} {v : Nat} {π : Pins} {old new : Bytes}
    (h : TVault C t K v π) :
    ∃ π', TVault C (fnSetPin C e s t old new).2 K v π' ∧ Rest t (fnSetPin C e s t old new).2 ∧
      ((fnSetPin C e s t old new).1 ≠ .ok () → samePins π π') ∧
      ((fnSetPin C e s t old new).1 = .ok () → Right C π (t.logged.getD .user) old ∧
        ∃ π1, samePins π π1 ∧ π' = setU π1 (t.logged.getD .user) (some (new, 0))) ∧
      (quiet e → ((fnSetPin C e s t old new).1, π') = setPinP C π (t.logged.getD .user) new old ∨
        ∃ r, (fnSetPin C e s t old new).1 = .error r ∧ r ≠ .pinIncorrect ∧ r ≠ .pinLocked ∧ π' = π) ∧
      (quiet e → s.isWritable = true → new ≠ [] → old ≠ [] → t.isInitialized = true →
        ((fnSetPin C e s t old new).1, π') = setPinP C π (t.logged.getD .user) new old) := by
  have bad : ∀ r : Rv, r ≠ .pinIncorrect → r ≠ .pinLocked → ∀ {P : Prop} (_ : ¬ P), ∃ π', TVault C t K v π' ∧ Rest t t ∧
      ((.error r : Res Unit) ≠ .ok () → samePins π π') ∧
      ((.error r : Res Unit) = .ok () → Right C π (t.logged.getD .user) old ∧
        ∃ π1, samePins π π1 ∧ π' = setU π1 (t.logged.getD .user) (some (new, 0))) ∧
      (quiet e → ((.error r : Res Unit), π') = setPinP C π (t.logged.getD .user) new old ∨
        ∃ r', (.error r : Res Unit) = .error r' ∧ r' ≠ .pinIncorrect ∧ r' ≠ .pinLocked ∧ π' = π) ∧
      (P → ((.error r : Res Unit), π') = setPinP C π (t.logged.getD .user) new old) :=
    fun r h1 h2 P hP => ⟨π, h, .refl _, fun _ => .refl _, fun hh => (by cases hh), fun _ => .inr ⟨r, rfl, h1, h2, rfl⟩,
      fun hp => absurd hp hP⟩
  unfold fnSetPin
  by_cases c1 : s.isWritable = true
  · by_cases c2 : new = [] ∨ old = []
    · simp only [c1, Bool.not_true, Bool.false_eq_true, if_false, if_pos c2]
      obtain ⟨π', b1, b2, b3, b4, b5, b6⟩ := bad .pinInvalid (by decide) (by decide) (P := False) id
      exact ⟨π', b1, b2, b3, b4, b5, fun _ _ x y _ => absurd c2 (by rintro (c | c) <;> contradiction)⟩
    · by_cases c3 : t.isInitialized = true
      · simp only [c1, Bool.not_true, Bool.false_eq_true, if_false, if_neg c2, c3]
        have ho : old ≠ [] := fun x => c2 (.inr x)
        cases hl : t.logged with
        | some u =>
          simp only [Token.loggedIn, hl, Option.isSome_some, if_true, Option.getD_some]
          obtain ⟨⟨π', h1, h2, h3, h4⟩, h5, h6, h7⟩ :=
            token_setPin (e := e.sub 1) (who := none) (u := u) (pin := new) (old := old) h (h.logged _ hl).2 hl
          exact ⟨π', h1, h5, h2, fun hok => ⟨h6 hok ho, h3 hok⟩, fun q => .inl (h4 (quiet_sub q 1)),
            fun q _ _ _ _ => h4 (quiet_sub q 1)⟩
        | none =>
          simp only [Token.loggedIn, hl, Option.isSome_none, Bool.false_eq_true, if_false, Option.getD_none]
          have a := token_login (e := e.sub 0) (ut := CKU_USER) (pin := old) h
          have al : ∀ t1, t.login C (e.sub 0) CKU_USER old = (.ok (), t1) → t1.logged = some .user := by
            intro t1 h1
            unfold Token.login at h1
            have : Token.userOf CKU_USER = some .user := by decide
            rw [this] at h1
            simp only [hl, reduceCtorEq, if_false, ne_eq, not_true] at h1
            rcases authUser_logged (C := C) (e.sub 0) t .user old false with x | ⟨_, _, x⟩
            · unfold Token.authUser at h1
              split at h1
              rename_i r f st _
              cases r with
              | error r => injection h1 with h1; cases h1
              | ok _ => injection h1 with _ h1; rw [← h1]; rfl
            · rw [h1] at x; exact x
          generalize t.login C (e.sub 0) CKU_USER old = p at a al ⊢
          obtain ⟨r, t1⟩ := p
          obtain ⟨⟨⟨π1, h1, h2, h3⟩, h4⟩, h5⟩ := a
          have h3 : quiet e → (r, π1) = authP C π .user old := by
            intro q
            have := h3 (quiet_sub q 0)
            unfold loginP at this
            have u1 : Token.userOf CKU_USER = some .user := by decide
            rw [u1] at this
            simpa [hl] using this
          cases r with
          | error r =>
            have fin : quiet e → ((.error r : Res Unit), π1) = setPinP C π .user new old := by
              intro q
              unfold setPinP
              rw [if_pos ho, ← h3 q]
            exact ⟨π1, h1, h4, fun _ => h2, fun hok => (by cases hok), fun q => .inl (fin q), fun q _ _ _ _ => fin q⟩
          | ok _ =>
            simp only
            have hlg := al t1 rfl
            obtain ⟨⟨π2, g1, g2, g3, g4⟩, g5, g6, g7⟩ :=
              token_setPin (e := e.sub 1) (who := none) (u := .user) (pin := new) (old := old) h1 (h1.logged _ hlg).2 hlg
            generalize t1.setPin C (e.sub 1) none new old = p at g1 g2 g3 g4 g5 g6 g7 ⊢
            obtain ⟨r, t2⟩ := p
            simp only at g1 g2 g3 g4 g5 g6 g7 ⊢
            obtain ⟨l1, l2, _⟩ := token_logout (e := e.sub 2) g1
            have fin : quiet e → (r, π2) = setPinP C π .user new old := by
              intro q
              obtain ⟨p, n, e1, e2, e3, e4⟩ := authP_ok (h3 q)
              rw [g4 (quiet_sub q 1)]
              have hs : π1 .user = some (p, 0) := by rw [e4]; simp [setU]
              have ha : authP C π1 .user old = (.ok (), π1) := by
                unfold authP
                rw [hs]
                simp only
                rw [if_neg (by decide : ¬ 10 ≤ 0), if_pos e3, setU_self hs]
              unfold setPinP
              rw [if_pos ho, if_pos ho, ← h3 q, ha]
            refine ⟨π2, l1, h4.trans (g5.trans l2), fun hn => h2.trans (g2 hn), fun hok => ?_, fun q => .inl (fin q),
              fun q _ _ _ _ => fin q⟩
            obtain ⟨π3, x1, x2⟩ := g3 hok
            exact ⟨(g6 hok ho).same h2, π3, h2.trans x1, x2⟩
      · simp only [c1, Bool.not_true, Bool.false_eq_true, if_false, if_neg c2, Bool.not_eq_true] at c3 ⊢
        simp only [c3, Bool.not_false, if_true]
        obtain ⟨π', b1, b2, b3, b4, b5, b6⟩ := bad .tokenNotInitialized (by decide) (by decide) (P := False) id
        exact ⟨π', b1, b2, b3, b4, b5, fun _ _ _ _ x => by contradiction⟩
  · simp only [Bool.not_eq_true] at c1
    simp only [c1, Bool.not_false, if_true]
    obtain ⟨π', b1, b2, b3, b4, b5, b6⟩ := bad .sessionReadOnly (by decide) (by decide) (P := False) id
    exact ⟨π', b1, b2, b3, b4, b5, fun _ x => by cases x⟩

/-! ## Opening a token -/

theorem loadInfoRow_flags {info i' : TokInfo} {k : MetaKey} {v : Bytes} (h : loadInfoRow info k v = .ok i') :
    (k ≠ .flags → i'.flags = info.flags) ∧ (k = .flags → i'.flags = fromLE v) := by
  unfold loadInfoRow at h
  split at h
  case h_5 =>
    split at h
    · cases h
    · injection h with h; subst h; exact ⟨fun x => absurd rfl x, fun _ => rfl⟩
  all_goals
    injection h with h
    subst h
    refine ⟨fun _ => rfl, fun x => ?_⟩
    first | (cases x; done) | (subst x; contradiction)

theorem loadInfoRows_flags {l : List (MetaKey × Bytes)} {info i' : TokInfo} (hn : (AMap.keys l).Nodup)
    (h : loadInfoRows info l = .ok i') :
    i'.flags = match AMap.get l .flags with
      | none => info.flags
      | some v => fromLE v := by
  induction l generalizing info with
  | nil => injection h with h; rw [← h]; rfl
  | cons p l ih =>
    obtain ⟨k, v⟩ := p
    unfold loadInfoRows at h
    cases hr : loadInfoRow info k v with
    | error r => rw [hr] at h; cases h
    | ok i2 =>
      rw [hr] at h
      obtain ⟨h1, h2⟩ := loadInfoRow_flags hr
      have hnd := List.nodup_cons.1 hn
      rw [ih hnd.2 h, AMap.get_cons]
      by_cases hk : k = .flags
      · subst hk
        rw [if_pos rfl, AMap.get_eq_none.2 hnd.1]
        exact h2 rfl
      · rw [if_neg hk, h1 hk]

theorem loadInfoRows_err {l : List (MetaKey × Bytes)} {info : TokInfo}
    (h : loadInfoRows info l = .error .cryptokiNotInitialized) : False := by
  induction l generalizing info with
  | nil => cases h
  | cons p l ih =>
    obtain ⟨k, v⟩ := p
    unfold loadInfoRows at h
    cases hr : loadInfoRow info k v with
    | error r =>
      rw [hr] at h
      injection h with h; subst h
      unfold loadInfoRow at hr
      repeat' split at hr
      all_goals cases hr
    | ok i2 => rw [hr] at h; exact ih h

theorem initPinFlags_noinit {e : Env} {s : Store} {K : Bytes} {v : Nat} {π : Pins}
    (hno : ∀ p, e.fault p ≠ some .cryptokiNotInitialized) (hd : DbVault C s.db K v π)
    (h : s.initPinFlags e = .error .cryptokiNotInitialized) : False := by
  have f : ∀ i u, s.db.fetchUser (e.sub i) u ≠ .error .cryptokiNotInitialized := by
    intro i u hr
    rcases hd.fetch (e.sub i) u with ⟨r', hf, hx⟩ | ⟨hf, hp, hx⟩ | ⟨p, n, b, hf, hp, hn, hw, hx⟩
    · rw [hx] at hr; injection hr with hr; subst hr; exact hno [i] hf
    · rw [hx] at hr; cases hr
    · rw [hx] at hr; cases hr
  unfold Store.initPinFlags at h
  split at h
  · injection h with h; subst h; exact f 0 .so (by assumption)
  · simp only at h
    split at h
    · cases h
    · split at h
      · cases h
      · injection h with h; subst h; exact f 1 .user (by assumption)

theorem new_vault {e : Env} {db : Db} {cfg : TokCfg} {t : Token} {K : Bytes} {v : Nat} {π : Pins}
    (hd : DbVault C db K v π) (hp : plain e) (h : Token.new C e db cfg = .ok t) :
    TVault C t K v π ∧ t.logged = none ∧ t.store.db = db ∧ t.store.aci.key = none ∧
      (Inited db → t.isInitialized = true) := by
  unfold Token.new at h
  extract_lets src t0 tf sf t' at h
  have h1 : ∀ t1, t' = .ok t1 → t1.store = ⟨db, Aci.new true⟩ ∧ t1.logged = none ∧
      (Inited db → t1.isInitialized = true) := by
    intro t1 h1
    simp only [t', tf, sf, t0, src] at h1
    split at h1
    · rename_i info ho
      injection h1 with h1
      rw [← h1]
      refine ⟨rfl, rfl, fun hi => ?_⟩
      rw [isInitialized_eq]
      show (info.flags ||| CKF_RNG).testBit 10 = true
      obtain ⟨hr, fl, hlt, hb, hg⟩ := hi
      unfold Store.open at ho
      split at ho
      · cases ho
      · split at ho
        · cases ho
        · split at ho
          · cases ho
          · rename_i i2 hf
            split at ho
            · cases ho
            · rename_i f _
              injection ho with ho
              rw [← ho]
              show (i2.flags ||| f ||| CKF_RNG).testBit 10 = true
              unfold Db.fetchTokenInfo at hf
              split at hf
              · cases hf
              · have := loadInfoRows_flags hd.nodup hf
                rw [hg] at this
                simp only at this
                rw [fromLE_toLE 4 fl hlt] at this
                rw [Nat.testBit_or, Nat.testBit_or, this, hb]
                rfl
    · rename_i ho
      injection h1 with h1
      rw [← h1]
      refine ⟨rfl, rfl, fun hi => ?_⟩
      obtain ⟨hr, fl, hlt, hb, hg⟩ := hi
      have hno : ∀ p, (e.sub 0).fault p ≠ some .cryptokiNotInitialized := fun p hx =>
        (plain_sub hp 0 p _ hx).2.2 rfl
      exfalso
      unfold Store.open at ho
      split at ho
      · rename_i hf; injection ho with ho; subst ho; exact hno [0] hf
      · split at ho
        · rename_i r hf
          injection ho with ho; subst ho
          unfold Db.isInitialized at hf
          split at hf
          · rename_i hx; injection hf with hf; subst hf; exact hno [1] hx
          · rw [show (⟨db, Aci.new true⟩ : Store).db.ready = true from hr] at hf; cases hf
        · split at ho
          · rename_i r hf
            injection ho with ho; subst ho
            unfold Db.fetchTokenInfo at hf
            split at hf
            · rename_i hx; injection hf with hf; subst hf; exact hno [2] hx
            · exact loadInfoRows_err hf
          · split at ho
            · rename_i r hf
              injection ho with ho; subst ho
              exact initPinFlags_noinit (fun p => hno (3 :: p)) hd hf
            · cases ho
    · cases h1
  clear_value t'
  cases t' with
  | error r => cases h
  | ok t1 =>
    obtain ⟨g1, g2, g3⟩ := h1 t1 rfl
    simp only at h
    have b1 := internal_store (C := C) (e.sub 1) t1 g2
    have b2 := internalInit_same (C := C) (e.sub 1) t1
    generalize t1.internalInit C (e.sub 1) = p at b1 b2 h
    obtain ⟨r, t2⟩ := p
    cases r with
    | error r => cases h
    | ok _ =>
      injection h with h
      rw [← h]
      simp only at b1 b2
      have hl : t2.logged = none := b2.logged.trans g2
      have hs : t2.store = ⟨db, Aci.new true⟩ := b1.trans g1
      refine ⟨⟨?_, ?_, fun u hu => ?_⟩, hl, by rw [hs], by rw [hs]; rfl, fun hi => b2.init.trans (g3 hi)⟩
      · show DbVault C t2.store.db K v π
        rw [hs]; exact hd
      · show AciOk t2.store.aci K v
        rw [hs]; exact ⟨rfl, fun k hk => by cases hk⟩
      · have hu : t2.logged = some u := hu
        rw [hl] at hu; cases hu

end Kry
