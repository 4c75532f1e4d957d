import Verif.Proofs.OpFrame
import Verif.Proofs.KeyFacts
import Verif.Proofs.Dead
import Verif.Spec.Operations
import Verif.Props.C22
import Verif.Props.ExMechs

/-!
# C23: always-authenticate keys

The property fails: starting any other operation in the session, for instance a search, lifts the demand for a login
(`C23_violation`).  `C23_partial`: as long as nothing is started in the session after C_SignInit or C_DecryptInit with
such a key, every call on an operation of that session is refused without effect until C_Login(CKU_CONTEXT_SPECIFIC)
succeeds; nothing that happens elsewhere, including in other sessions, helps.  That this login wants the right PIN is
part of C05.
-/

namespace Kry
open Spec

variable {M : Mechs} {C : Crypto} {O : Oracle}

/-- The events that lift the demand for a login in session `h`: a successful context-specific login there, but also the
start of an operation or search there. -/
def Spec.lifts (h : Nat) : Event → Prop
  | (.login h' ut _, .ok) => h' = h ∧ ut = CKU_CONTEXT_SPECIFIC
  | (.op h' (.opInit _ (some _) _ _), .ok) => h' = h
  | (.sess h' (.findInit _), .ok) => h' = h
  | _ => False

theorem putOp_login (x : Session) (k : OpKind) (o : Op) : (x.putOp k o).login = x.login := rfl

/-- Only the start of an operation changes the login marker of its session. -/
theorem opStep_login (e : Env) (h : Nat) (c : OCall) (x : Session) (t : Token) :
    (opStep M C e h c x t).2.1.login = x.login ∨
      (opStep M C e h c x t).1 = .ok ∧ ∃ k m key sig, c = .opInit k (some m) key sig := by
  have feed : ∀ e k d (x : Session), (fnFeed M e k d x).2.login = x.login := by
    intro e k d x
    unfold fnFeed
    split
    · rfl
    · simp only; split <;> rfl
  have crypt : ∀ e k a i (x : Session), (fnCrypt M e k a i x).2.login = x.login := by
    intro e k a i x
    unfold fnCrypt
    split
    · rfl
    · split <;> rfl
  have dual : ∀ k1 k2 i, (fnDual M e k1 k2 i x).2.login = x.login := by
    intro k1 k2 i
    unfold fnDual
    split
    · rfl
    · have hc := crypt (e.sub 0) k1 .update i x
      generalize fnCrypt M (e.sub 0) k1 .update i x = p at hc ⊢
      obtain ⟨r, y⟩ := p
      simp only at hc ⊢
      split
      · rename_i b
        have hf := feed (e.sub 1) k2 (if k1 = .enc then i.data else b) y
        generalize fnFeed M (e.sub 1) k2 (if k1 = .enc then i.data else b) y = p at hf ⊢
        obtain ⟨r, z⟩ := p
        simp only at hf ⊢
        split <;> exact hf.trans hc
      · exact hc
  cases c with
  | opInit k m key sig =>
    cases m with
    | none => exact .inl rfl
    | some mp =>
      obtain ⟨m, p⟩ := mp
      unfold opStep
      simp only
      by_cases hd : k = .digest
      · rw [if_pos hd]
        rcases initDigest_cases (M := M) e m p x t with ⟨r, h1⟩ | ⟨o, h1, _⟩
        · rw [h1]; exact .inl rfl
        · rw [h1]; exact .inr ⟨rfl, _, _, _, _, rfl⟩
      · rw [if_neg hd]
        rcases initKey_cases (M := M) (C := C) e k m p key sig x t with ⟨r, h1⟩ | ⟨o, b, h1, _⟩
        · rw [h1]; exact .inl rfl
        · rw [h1]; exact .inr ⟨rfl, _, _, _, _, rfl⟩
  | opRun k a i =>
    left
    unfold opStep
    simp only
    unfold fnOpRun
    have sign : ∀ a, (fnSign M C e a i x t).2.1.login = x.login := by
      intro a
      unfold fnSign
      repeat' split
      all_goals rfl
    have verify : ∀ k a, (fnVerify M C e k a i x t).2.1.login = x.login := by
      intro k a
      unfold fnVerify
      simp only
      repeat' split
      all_goals rfl
    have digest : ∀ a, (fnDigest M e a i x).2.login = x.login := by
      intro a
      unfold fnDigest
      repeat' split
      all_goals rfl
    have message : ∀ k a, (fnMessage M e k a i x t).2.login = x.login := by
      intro k a
      unfold fnMessage
      repeat' split
      all_goals rfl
    cases k <;> cases a <;> simp only
    all_goals first
      | exact crypt _ _ _ _ _
      | exact digest _
      | exact feed _ _ _ _
      | exact sign _
      | exact verify _ _
      | exact message _ _
  | digestKey key =>
    left
    unfold opStep
    simp only
    unfold fnDigestKey
    repeat' split
    all_goals first | rfl | exact feed _ _ _ _
  | digestEncrypt i => exact .inl (dual _ _ _)
  | decryptDigest i => exact .inl (dual _ _ _)
  | signEncrypt i => exact .inl (dual _ _ _)
  | decryptVerify i => exact .inl (dual _ _ _)
  | cancel f =>
    left
    have c1 : ∀ (x : Session) f g k, (x.cancelIf f g k).login = x.login := by
      intro x f g k; unfold Session.cancelIf; split <;> rfl
    have c2 : ∀ (x : Session) f, (x.cancelSearch f).login = x.login := by
      intro x f; unfold Session.cancelSearch; split <;> rfl
    show (fnCancel f x).2.login = x.login
    rw [fnCancel_snd]
    simp only [Session.cancelAll, c1, c2]
  | generatePair m p pub priv =>
    left
    unfold opStep
    simp only
    split <;> rfl
  | derive m p key tm =>
    left
    unfold opStep
    simp only
    split <;> rfl
  | _ => exact .inl rfl

theorem sessStep_login (e : Env) (h : Nat) (c : SCall) (x : Session) (t : Token) :
    (sessStep C O e h c x t).2.1.login = x.login ∨
      (sessStep C O e h c x t).1 = .ok ∧ ∃ tm, c = .findInit tm := by
  cases c with
  | findInit tm =>
    unfold sessStep
    simp only
    split
    · exact .inl rfl
    · unfold Session.newSearch
      split
      · exact .inl rfl
      · simp only
        split
        · exact .inl rfl
        · exact .inr ⟨rfl, _, rfl⟩
  | find max =>
    left
    unfold sessStep
    simp only
    unfold Session.findObjects
    repeat' split
    all_goals first | rfl | (rename_i h1 _; injection h1 with _ h1; rw [← h1]; done) | skip
    all_goals (rename_i hq; repeat' split at hq)
    all_goals first | (cases hq; rfl) | cases hq
  | initPin pin => left; unfold sessStep; simp only; split <;> rfl
  | getObjectSize n =>
    left; unfold sessStep; simp only
    split
    · rfl
    · split <;> rfl
  | getAttr n q =>
    left; unfold sessStep; simp only
    split <;> rfl
  | _ => exact .inl rfl

/-- The session, if open, lets no operation work. -/
def Barred (s : St) (h : Nat) : Prop :=
  ∀ i sl x, AMap.get s.slots i = some sl → AMap.get sl.sessions h = some x →
    x.login = .required ∨ x.login = .notInit

theorem barred_step {e : Env} {s : St} {c : Call} {h : Nat} (hi : Inv s) (hb : Barred s h)
    (hl : ¬ lifts h (c, (step M C O e s c).1)) : Barred (step M C O e s c).2 h := by
  intro i sl' y hs hy
  have mv := step_sess hi hs hy
  generalize (step M C O e s c).1 = a at mv hl
  cases mv with
  | opened f hsm ho hse hlo => exact .inr hlo
  | kept c a sl x hs0 hx hk hc hc2 hc3 => rw [hk.2.2]; exact hb i sl x hs0 hx
  | loggedIn pin sl x hs0 hx ho hse hr hlo hok => exact (hl ⟨rfl, rfl⟩).elim
  | sess sc sl x hg hyy =>
    obtain ⟨_, _, h1, h2⟩ := getSession_ok hg
    rw [hyy]
    rcases sessStep_login (C := C) (O := O) e h sc x sl.token with h3 | ⟨h3, tm, h4⟩
    · rw [h3]; exact hb i sl x h1 h2
    · rw [h3, h4] at hl; exact (hl rfl).elim
  | op oc sl x hg hyy =>
    obtain ⟨_, _, h1, h2⟩ := getSession_ok hg
    rw [hyy]
    rcases opStep_login (M := M) (C := C) e h oc x sl.token with h3 | ⟨h3, k, m, key, sig, h4⟩
    · rw [h3]; exact hb i sl x h1 h2
    · rw [h3, h4] at hl; exact (hl rfl).elim

theorem barred_run (tr : Trace) {s : St} {h : Nat} (hi : Inv s) (hb : Barred s h)
    (hl : ∀ ev ∈ hist M C O s tr, ¬ lifts h ev) : Barred (run M C O s tr) h := by
  induction tr generalizing s with
  | nil => exact hb
  | cons p tr ih =>
    obtain ⟨e, c⟩ := p
    exact ih (inv_step M O e s c hi) (barred_step hi hb (hl _ List.mem_cons_self))
      (fun ev hev => hl ev (List.mem_cons_of_mem _ hev))

theorem getOp_barred {x : Session} (hb : x.login = .required ∨ x.login = .notInit) (k : OpKind) :
    ∃ r, x.getOp k = .error r := by
  unfold Session.getOp Session.checkLogin
  rcases hb with hb | hb <;> rw [hb] <;> exact ⟨_, rfl⟩

theorem opStep_barred {e : Env} {h : Nat} {c : OCall} {x : Session} {t : Token}
    (hb : x.login = .required ∨ x.login = .notInit) (hw : worksWith c ≠ []) :
    ∃ r, opStep M C e h c x t = (.err r, x, t) := by
  have feed : ∀ e k d, ∃ r, fnFeed M e k d x = (.error r, x) := by
    intro e k d
    obtain ⟨r, hr⟩ := getOp_barred hb k
    unfold fnFeed; rw [hr]; exact ⟨r, rfl⟩
  have crypt : ∀ e k a i, ∃ r, fnCrypt M e k a i x = (.err r, x) := by
    intro e k a i
    obtain ⟨r, hr⟩ := getOp_barred hb k
    unfold fnCrypt; rw [hr]; exact ⟨r, rfl⟩
  have dual : ∀ k1 k2 i, ∃ r, fnDual M e k1 k2 i x = (.err r, x) := by
    intro k1 k2 i
    unfold fnDual
    split
    · exact ⟨_, rfl⟩
    · obtain ⟨r, hr⟩ := crypt (e.sub 0) k1 .update i
      rw [hr]; exact ⟨r, rfl⟩
  cases c with
  | opRun k a i =>
    obtain ⟨r, hr⟩ := getOp_barred hb k
    unfold opStep
    simp only
    unfold fnOpRun
    cases k <;> cases a <;> simp only [fnMessage, fnCrypt, fnDigest, fnFeed, fnSign, fnVerify, hr, Out.of]
    all_goals repeat' split
    all_goals exact ⟨_, rfl⟩
  | digestKey key =>
    obtain ⟨r, hr⟩ := getOp_barred hb .digest
    unfold opStep
    simp only [fnDigestKey, hr]
    exact ⟨r, rfl⟩
  | digestEncrypt i => unfold opStep; simp only; obtain ⟨r, hr⟩ := dual .enc .digest i; rw [hr]; exact ⟨r, rfl⟩
  | decryptDigest i => unfold opStep; simp only; obtain ⟨r, hr⟩ := dual .dec .digest i; rw [hr]; exact ⟨r, rfl⟩
  | signEncrypt i => unfold opStep; simp only; obtain ⟨r, hr⟩ := dual .enc .sign i; rw [hr]; exact ⟨r, rfl⟩
  | decryptVerify i => unfold opStep; simp only; obtain ⟨r, hr⟩ := dual .dec .verify i; rw [hr]; exact ⟨r, rfl⟩
  | _ => exact (hw rfl).elim

theorem plain_always : plainTy CKA_ALWAYS_AUTHENTICATE := plain_of (by decide) (by decide +kernel)

/-- **C23, partial**: after C_SignInit or C_DecryptInit with an always-authenticate key, every call on an operation of
the session is refused and changes nothing, as long as there was no successful C_Login(CKU_CONTEXT_SPECIFIC) in that
session and (this is the missing part) nothing else was started in it. -/
theorem C23_partial (hM : OrderlyMechs M) (d : List (Nat × Db)) (hd : ∀ p ∈ d, TblOk p.2.objs) (tr : Trace) (e : Env) (h i key : Nat)
    (k : OpKind) (hk : k = .sign ∨ k = .dec) (m : Nat × Bytes) (sig : Bytes) (b : UInt8) (hb : b ≠ 0)
    (ha : reports M C O (after M C O d tr) h key CKA_ALWAYS_AUTHENTICATE [b])
    (hon : onSlot M C O (after M C O d tr) h i)
    (hok : (step M C O e (after M C O d tr) (.op h (.opInit k (some m) key sig))).1 = .ok)
    (tr2 : Trace)
    (hl : ∀ ev ∈ hist M C O (step M C O e (after M C O d tr) (.op h (.opInit k (some m) key sig))).2 tr2, ¬ lifts h ev)
    (e2 : Env) (c : OCall) (hc : worksWith c ≠ []) :
    let s2 := run M C O (step M C O e (after M C O d tr) (.op h (.opInit k (some m) key sig))).2 tr2
    ∃ r, step M C O e2 s2 (.op h c) = (.err r, s2) := by
  have hi : Inv (after M C O d tr) := inv_reach M O d tr
  have ht : TInv (after M C O d tr) := tinv_reach M O hd tr
  have hp : proper (after M C O d tr) i key CKA_ALWAYS_AUTHENTICATE :=
    (oinv_reach hM hd tr).proper i key (by decide +kernel)
  generalize after M C O d tr = s at *
  have hb1 : Barred (step M C O e s (.op h (.opInit k (some m) key sig))).2 h := by
    intro i' sl' y hs hy
    have mv := step_sess hi hs hy
    rw [hok] at mv
    generalize ho : Out.ok = a at mv
    cases mv with
    | kept c a sl x hs0 hx hk hc hc2 hc3 => exact (hc _ rfl).elim
    | op oc sl x hg hyy =>
      rw [hyy]
      obtain ⟨_, hsm, h1, h2⟩ := getSession_ok hg
      rw [(onSlot_iff hi).1 hon] at hsm
      injection hsm with hsm; subst hsm
      obtain ⟨m, p⟩ := m
      have hnd : k ≠ .digest := by rcases hk with rfl | rfl <;> exact nofun
      have hok' : (fnInitKey M C e k m p key sig x sl.token).1 = .ok () := by
        simp only [opStep, if_neg hnd] at ho
        cases hq : (fnInitKey M C e k m p key sig x sl.token).1 with
        | error r => rw [hq] at ho; cases ho
        | ok u => rfl
      obtain ⟨_, o, op, hobj, _, _, _, hy2⟩ := initKey_ok hok'
      left
      simp only [opStep, if_neg hnd]
      rw [hy2]
      obtain ⟨at', hf, hv⟩ := key_reports hi ht ha plain_always hg hobj
      have hty := key_bool ht plain_always (by decide) hp hg hobj hf
      have haa : o.alwaysAuth = true := by
        unfold Obj.alwaysAuth Obj.boolOr
        simp only [hf]
        unfold Attr.toBool
        simp [hty, hv, hb]
      rcases hk with rfl | rfl <;> simp [Session.setOp, haa]
  intro s2
  have hi1 := inv_step (C := C) M O e s (.op h (.opInit k (some m) key sig)) hi
  have hb2 : Barred s2 h := barred_run tr2 hi1 hb1 hl
  have hi2 : Inv s2 := inv_run M O tr2 _ hi1
  unfold step
  simp only
  cases hg : s2.getSession h with
  | error r => exact ⟨r, rfl⟩
  | ok q =>
    obtain ⟨i, sl, x⟩ := q
    obtain ⟨_, _, h1, h2⟩ := getSession_ok hg
    obtain ⟨r, hr⟩ := opStep_barred (M := M) (C := C) (e := e2) (h := h) (t := sl.token) (hb2 i sl x h1 h2) hc
    simp only [hr]
    exact ⟨r, by rw [setSlot_same hi2 h1 h2]⟩

/-! ## A case, and what does not hold -/

def exAlwaysSign : Trace := exAlways ++ [(exEnv 9, .op 1 (.opInit .sign (some (CKM_ECDSA, [])) 9 []))]

def exSign : OCall := .opRun .sign .oneShot { (default : OpIn) with data := [1, 2], out := some 64 }

set_option maxRecDepth 10000 in
example : exOuts (exAlwaysSign ++ [(exEnv 10, .op 1 exSign), (exEnv 11, .login 1 CKU_CONTEXT_SPECIFIC [9]),
    (exEnv 12, .op 1 exSign), (exEnv 11, .login 1 CKU_CONTEXT_SPECIFIC exPin), (exEnv 12, .op 1 exSign)]) =
    [.ok, .ok, .handle 1, .ok, .ok, .ok, .ok, .handle 9, .ok, .err .userNotLoggedIn, .err .pinIncorrect,
     .err .userNotLoggedIn, .ok, .bytes [1, 2]] := by decide +kernel

set_option maxRecDepth 10000 in
example : reports exMechs exCrypto exOracle (after exMechs exCrypto exOracle [] exAlways) 1 9
    CKA_ALWAYS_AUTHENTICATE [1] :=
  ⟨exEnv 0, ⟨CKA_ALWAYS_AUTHENTICATE, false, 1, [0]⟩, ⟨CKA_ALWAYS_AUTHENTICATE, false, 1, [1]⟩, rfl, rfl,
    by decide +kernel, rfl⟩

set_option maxRecDepth 10000 in
example : onSlot exMechs exCrypto exOracle (after exMechs exCrypto exOracle [] exAlways) 1 7 :=
  ⟨exEnv 0, .rwUser, 6, by decide +kernel⟩

set_option maxRecDepth 10000 in
/-- **Counterexample**: between C_SignInit and C_Sign the application starts a search; the signature is then made
although nobody authenticated (`src/session.rs:104-112`, `:492-506`: one `login_status` for all operations). -/
theorem C23_violation : ∃ (tr : Trace) (h key : Nat) (e1 e2 e3 : Env) (m : Nat × Bytes) (sig : Bytes) (q : OpIn) (b : Bytes),
    let s := after exMechs exCrypto exOracle [] tr
    let s1 := (step exMechs exCrypto exOracle e1 s (.op h (.opInit .sign (some m) key sig))).2
    let s2 := (step exMechs exCrypto exOracle e2 s1 (.sess h (.findInit []))).2
    reports exMechs exCrypto exOracle s h key CKA_ALWAYS_AUTHENTICATE [1] ∧
    (step exMechs exCrypto exOracle e1 s (.op h (.opInit .sign (some m) key sig))).1 = .ok ∧
    (step exMechs exCrypto exOracle e3 s2 (.op h (.opRun .sign .oneShot q))).1 = .bytes b :=
  ⟨exAlways, 1, 9, exEnv 9, exEnv 10, exEnv 11, (CKM_ECDSA, []), [], { (default : OpIn) with data := [1, 2], out := some 64 },
    [1, 2],
    ⟨exEnv 0, ⟨CKA_ALWAYS_AUTHENTICATE, false, 1, [0]⟩, ⟨CKA_ALWAYS_AUTHENTICATE, false, 1, [1]⟩, rfl, rfl,
      by decide +kernel, rfl⟩, by decide +kernel, by decide +kernel⟩

end Kry
