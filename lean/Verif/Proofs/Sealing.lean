import Verif.Proofs.VaultFrame
import Verif.Proofs.Path

/-!
# Storage encryption is never turned off
-/

namespace Kry

open Spec

variable {M : Mechs} {C : Crypto} {O : Oracle}

theorem encrypt_auth (e : Env) (s : Store) (u : User) (pin : Bytes) (co : Bool) :
    (s.authUser C e u pin co).2.2.aci.encrypt = s.aci.encrypt := by
  unfold Store.authUser
  split
  · rfl
  · rename_i info hf
    have : (s.aci.authenticate C (e.sub 1) u info pin (!co)).2.1.encrypt = s.aci.encrypt := by
      unfold Aci.authenticate
      repeat' split
      all_goals rfl
    generalize s.aci.authenticate C (e.sub 1) u info pin (!co) = p at this ⊢
    obtain ⟨r, a, i⟩ := p
    simp only at this ⊢
    repeat' split
    all_goals exact this

theorem encrypt_tokAuth (e : Env) (t : Token) (u : User) (pin : Bytes) (co : Bool) :
    (t.authUser C e u pin co).2.store.aci.encrypt = t.store.aci.encrypt := by
  have := encrypt_auth (C := C) e t.store u pin co
  unfold Token.authUser
  generalize t.store.authUser C e u pin co = p at this ⊢
  obtain ⟨r, f, st⟩ := p
  simp only at this ⊢
  repeat' split
  all_goals exact this

theorem encrypt_login (e : Env) (t : Token) (ut : Nat) (pin : Bytes) :
    (t.login C e ut pin).2.store.aci.encrypt = t.store.aci.encrypt := by
  unfold Token.login
  repeat' split
  all_goals first
    | rfl
    | exact encrypt_tokAuth ..

theorem encrypt_unauth (e : Env) (s : Store) (u : User) : (s.unauthUser e u).2.aci.encrypt = s.aci.encrypt := by
  unfold Store.unauthUser
  split <;> rfl

theorem encrypt_logout (e : Env) (t : Token) : (t.logout e).2.store.aci.encrypt = t.store.aci.encrypt := by
  unfold Token.logout
  split
  · rfl
  · rename_i u _
    have := encrypt_unauth e t.store u
    simp only [Token.clearPrivate]
    generalize t.store.unauthUser e u = p at this ⊢
    obtain ⟨r, st⟩ := p
    simp only at this ⊢
    split <;> exact this

theorem encrypt_setUserPin (e : Env) (s : Store) (u : User) (pin : Bytes) :
    (s.setUserPin C e u pin).2.aci.encrypt = s.aci.encrypt := by
  unfold Store.setUserPin
  split <;> rfl

theorem encrypt_setPin (e : Env) (t : Token) (who : Option User) (pin old : Bytes) :
    (t.setPin C e who pin old).2.store.aci.encrypt = t.store.aci.encrypt := by
  unfold Token.setPin
  simp only
  split
  · split <;> rfl
  · rename_i u _
    have a : (if old ≠ [] then t.authUser C (e.sub 0) u old true else (.ok (), t)).2.store.aci.encrypt = t.store.aci.encrypt := by
      split
      · exact encrypt_tokAuth ..
      · rfl
    generalize (if old ≠ [] then t.authUser C (e.sub 0) u old true else (.ok (), t)) = p at a ⊢
    obtain ⟨r, t1⟩ := p
    simp only at a ⊢
    cases r with
    | error r => exact a
    | ok _ =>
      simp only
      have b := encrypt_setUserPin (C := C) (e.sub 1) t1.store u pin
      generalize t1.store.setUserPin C (e.sub 1) u pin = q at b ⊢
      obtain ⟨r, st⟩ := q
      simp only at b ⊢
      cases r with
      | error r => exact b.trans a
      | ok _ => cases u <;> exact b.trans a

theorem encrypt_reinit (e : Env) (s : Store) : (s.reinit C e).2.aci.encrypt = s.aci.encrypt := by
  unfold Store.reinit
  generalize s.db.reset (e.sub 0) = p
  obtain ⟨r, db⟩ := p
  simp only
  cases r with
  | error r => rfl
  | ok _ =>
    simp only
    have a : (s.aci.reset (e.sub 1)).2.encrypt = s.aci.encrypt := by
      unfold Aci.reset
      repeat' split
      all_goals rfl
    generalize s.aci.reset (e.sub 1) = q at a ⊢
    obtain ⟨r, aci⟩ := q
    simp only at a ⊢
    cases r with
    | error r => exact a
    | ok _ =>
      simp only
      have b : ∀ x : Store, (x.defaultSoPin C (e.sub 2)).2.aci = x.aci := by
        intro x; unfold Store.defaultSoPin; split <;> rfl
      have b := b ⟨db, aci⟩
      generalize Store.defaultSoPin C (e.sub 2) ⟨db, aci⟩ = q at b ⊢
      obtain ⟨r, s1⟩ := q
      simp only at b ⊢
      cases r with
      | error r => simp only; rw [b]; exact a
      | ok _ =>
        simp only
        have c : (s1.defaultTokenInfo (e.sub 3)).2.aci = s1.aci := by
          unfold Store.defaultTokenInfo
          simp only
          split
          · rfl
          · split <;> rfl
        generalize s1.defaultTokenInfo (e.sub 3) = q at c ⊢
        obtain ⟨r, s2⟩ := q
        simp only at c ⊢
        cases r with
        | error r => simp only; rw [c, b]; exact a
        | ok _ => simp only; split <;> (simp only; rw [c, b]; exact a)

theorem aci_insert (e : Env) (t : Token) (k : Nat) (o : Obj) : (t.insertObject C e k o).2.store.aci = t.store.aci := by
  unfold Token.insertObject
  split
  · split
    · rfl
    · exact (stillS_store (C := C) e t.store t.handles o).aci
  · simp only
    repeat' split
    all_goals rfl

theorem aci_builtins (e : Env) (cls ty : Nat) (l : List Nat) (t : Token) (n : Nat) :
    (t.insertBuiltins C e cls ty l n).2.store.aci = t.store.aci := by
  have one : ∀ (e : Env) (t : Token) (id : Nat), (t.insertBuiltin C e cls ty id).2.store.aci = t.store.aci := by
    intro e t id
    unfold Token.insertBuiltin
    split
    · rfl
    · split
      · rfl
      · rename_i o _
        have := aci_insert (C := C) e t 0 o
        generalize t.insertObject C e 0 o = p at this ⊢
        obtain ⟨r, t1⟩ := p
        simp only at this ⊢
        split <;> exact this
  induction l generalizing t n with
  | nil => rfl
  | cons id l ih =>
    unfold Token.insertBuiltins
    have a := one (e.sub n) t id
    generalize t.insertBuiltin C (e.sub n) cls ty id = p at a ⊢
    obtain ⟨r, t1⟩ := p
    simp only at a ⊢
    cases r with
    | error r => exact a
    | ok _ => exact (ih _ _).trans a

theorem aci_internal (e : Env) (t : Token) : (t.internalInit C e).2.store.aci = t.store.aci := by
  unfold Token.internalInit
  have a := aci_builtins (C := C) (e.sub 0) CKO_PROFILE CKA_PROFILE_ID Token.profiles t 0
  generalize t.insertBuiltins C (e.sub 0) CKO_PROFILE CKA_PROFILE_ID Token.profiles 0 = p at a ⊢
  obtain ⟨r, t1⟩ := p
  simp only at a ⊢
  cases r with
  | error r => exact a
  | ok _ => exact (aci_builtins ..).trans a

theorem encrypt_initToken (e : Env) (t : Token) (pin label : Bytes) :
    (t.initToken C e pin label).2.store.aci.encrypt = t.store.aci.encrypt := by
  unfold Token.initToken
  have a : (if t.isInitialized = true then t.authUser C (e.sub 0) .so pin true else (.ok (), t)).2.store.aci.encrypt =
      t.store.aci.encrypt := by
    split
    · exact encrypt_tokAuth ..
    · rfl
  generalize (if t.isInitialized = true then t.authUser C (e.sub 0) .so pin true else (.ok (), t)) = p at a ⊢
  obtain ⟨r, t1⟩ := p
  simp only at a ⊢
  cases r with
  | error r => exact a
  | ok _ =>
    simp only
    have b := (encrypt_reinit (C := C) (e.sub 1) t1.store).trans a
    generalize t1.store.reinit C (e.sub 1) = p at b ⊢
    obtain ⟨r, st⟩ := p
    simp only at b ⊢
    cases r with
    | error r => exact b
    | ok info =>
      simp only
      generalize hT : (Token.mk _ _ _ _ _ _) = T
      have c := encrypt_setPin (C := C) (e.sub 2) T (some .so) pin []
      have hc : T.store.aci.encrypt = t.store.aci.encrypt := by rw [← hT]; exact b
      have c := c.trans hc
      clear hc hT
      generalize T.setPin C (e.sub 2) (some .so) pin [] = p at c ⊢
      obtain ⟨r, t2⟩ := p
      simp only at c ⊢
      split
      · exact c
      · generalize t2.store.db.storeTokenInfo (e.sub 3) _ = p
        obtain ⟨r, db⟩ := p
        cases r with
        | error r => exact c
        | ok _ =>
          simp only [Token.fillInfo]
          have d := (encrypt_unauth (e.sub 4) ⟨db, t2.store.aci⟩ .so).trans c
          generalize Store.unauthUser (e.sub 4) ⟨db, t2.store.aci⟩ .so = p at d ⊢
          obtain ⟨r, st⟩ := p
          simp only at d ⊢
          cases r with
          | error r => exact d
          | ok _ => simp only; rw [aci_internal]; exact d

theorem encrypt_changePin (e : Env) (s : Session) (t : Token) (old new : Bytes) :
    (fnSetPin C e s t old new).2.store.aci.encrypt = t.store.aci.encrypt := by
  unfold fnSetPin
  split
  · rfl
  · split
    · rfl
    · split
      · rfl
      · split
        · exact encrypt_setPin ..
        · have a := encrypt_login (C := C) (e.sub 0) t CKU_USER old
          generalize t.login C (e.sub 0) CKU_USER old = p at a ⊢
          obtain ⟨r, t1⟩ := p
          simp only at a ⊢
          cases r with
          | error r => exact a
          | ok _ =>
            simp only
            have b := encrypt_setPin (C := C) (e.sub 1) t1 none new old
            generalize t1.setPin C (e.sub 1) none new old = p at b ⊢
            obtain ⟨r, t2⟩ := p
            exact (encrypt_logout (e.sub 2) t2).trans (b.trans a)

theorem encrypt_prim {k : Nat} {D : Nat → Prop} {N : Obj → Prop} {I : Prop} {a b : Token} (x : TPrim C k D N I W a b) :
    b.store.aci.encrypt = a.store.aci.encrypt := by
  cases x with
  | act x =>
    cases x with
    | insert e o hz hn => rw [aci_insert]
    | destroy e n hd => rw [(act_still (C := C) (.destroy (h := k) (D := D) (N := N) e n a ‹_›)).aci]
    | setAttrs e n tm hw => rw [(act_still (C := C) (.setAttrs (h := k) (D := D) (N := N) e n tm a trivial)).aci]
    | search e tm hf => rfl
    | update e n tm hl hu hdd => rw [(act_still (C := C) (.update (h := k) (D := D) (N := N) e n tm a ‹_› ‹_› ‹_›)).aci]
    | initPin e pin hp =>
      unfold fnInitPin
      split
      · rfl
      · exact encrypt_setPin ..
    | changePin e s old new hp hd => exact encrypt_changePin ..
  | login e ut pin => exact encrypt_login ..
  | logout e hd => exact encrypt_logout ..
  | drop h hd => rfl
  | initTok e pin label hi => exact encrypt_initToken ..

/-- Every loaded token encrypts what it stores. -/
def Encrypts (s : St) : Prop := ∀ i sl, AMap.get s.slots i = some sl → sl.token.store.aci.encrypt = true

theorem encrypts_new {e : Env} {db : Db} {cfg : TokCfg} {t : Token} (h : Token.new C e db cfg = .ok t) :
    t.store.aci.encrypt = true := by
  unfold Token.new at h
  extract_lets src t0 tf sf t' at h
  have h0 : ∀ x, t' = .ok x → x.store.aci.encrypt = true := by
    intro x hx
    simp only [t'] at hx
    split at hx
    · injection hx with hx; rw [← hx]; rfl
    · injection hx with hx; rw [← hx]; rfl
    · cases hx
  clear_value t'
  cases t' with
  | error r => cases h
  | ok t0 =>
    have h0 := h0 t0 rfl
    have a := aci_internal (C := C) (e.sub 1) t0
    simp only at h
    generalize t0.internalInit C (e.sub 1) = p at h a
    obtain ⟨r, t1⟩ := p
    cases r with
    | error r => cases h
    | ok _ => injection h with h; rw [← h]; simp only at a ⊢; rw [a]; exact h0

theorem encrypts_step (e : Env) (c : Call) {s : St} (hi : Inv s) (h : Encrypts s) : Encrypts (step M C O e s c).2 := by
  intro i sl' hs'
  by_cases h1 : c = .finalize
  · subst h1
    simp only [step, fnFinalize] at hs'
    split at hs'
    · exact h i sl' hs'
    · cases hs'
  by_cases h2 : c = .crash
  · subst h2; cases hs'
  cases hs : AMap.get s.slots i with
  | some sl0 =>
    obtain ⟨sl2, hs2, x⟩ := step_path (M := M) (O := O) (e := e) hi hs h1 h2
    rw [hs2] at hs'; injection hs' with hs'; subst hs'
    exact TPath.inv (P := fun t => t.store.aci.encrypt = true) (fun a b x h => (encrypt_prim x).trans h) x (h i sl0 hs)
  | none =>
    obtain ⟨e', cfg, conf, hcc, hmem, _, hnew⟩ := step_new hs hs'
    exact encrypts_new hnew

end Kry
