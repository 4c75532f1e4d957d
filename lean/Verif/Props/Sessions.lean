import Verif.Proofs.Observe
import Verif.Props.MachineEx

/-!
# C01–C04: session handles, session states and logins

All theorems are about an arbitrary reachable state: any files on disk, any history of calls with any
environment (random bytes, faults) and any mechanisms.  What "is open" and "is logged in" mean is read
off the calls and their answers alone (`Spec.observe`).
-/

namespace Kry

open Spec

variable (M : Mechs) (C : Crypto) (O : Oracle)

/-- The notebook of a history. -/
abbrev notes (d : List (Nat × Db)) (tr : Trace) : Obs := observe (hist M C O (St.init d) tr)

/-- The state after a history. -/
abbrev after (d : List (Nat × Db)) (tr : Trace) : St := run M C O (St.init d) tr

/-! ## C01 -/

/-- A handle returned by C_OpenSession is not zero and was not returned before since the library was
initialised. -/
theorem C01_fresh (d : List (Nat × Db)) (tr : Trace) (e : Env) (slot flags n : Nat)
    (h : (step M C O e (after M C O d tr) (.openSession slot flags)).1 = .handle n) :
    n ≠ 0 ∧ n ∉ (notes M C O d tr).issued := by
  have a := agree_reach (C := C) M O d tr
  have hn : n = (run M C O (St.init d) tr).next ∧ (run M C O (St.init d) tr).ready = true := by
    revert h
    show (fnOpen _ slot flags).1 = _ → _
    unfold fnOpen
    repeat' split
    all_goals (intro h; first | (cases h; done) | skip)
    rename_i hg _ _ _ _ _
    injection h with h
    exact ⟨h.symm, (getSlot_ok hg).1⟩
  have h0 : (run M C O (St.init d) tr).next ≠ 0 := by simpa [St.ready] using hn.2
  refine ⟨by rw [hn.1]; exact h0, ?_⟩
  intro hm
  have := (a.issued n hm).2
  omega

/-- A handle in the notebook names its session: C_GetSessionInfo reports the slot and flags it was opened
with and C_CloseSession succeeds. -/
theorem C01_live (d : List (Nat × Db)) (tr : Trace) (e : Env) (l : Live)
    (h : l ∈ (notes M C O d tr).live) :
    (∃ st, (step M C O e (after M C O d tr) (.sess l.h .getSessionInfo)).1 = .sessInfo l.slot st l.flags) ∧
    (step M C O e (after M C O d tr) (.closeSession l.h)).1 = .ok := by
  have a := agree_reach (C := C) M O d tr
  have hi := inv_reach (C := C) M O d tr
  have hm := (a.map l.h l.slot).1 ⟨l, h, rfl, rfl⟩
  obtain ⟨sl, x, hg, hs, hx⟩ := getSession_live hi hm
  obtain ⟨x0, h1, _⟩ := a.sess l h
  rw [vsess_at hs, hx] at h1
  simp only [Option.map_some, Option.some.injEq, Prod.mk.injEq] at h1
  have ok := hi.slot _ _ hs
  constructor
  · refine ⟨x.state, ?_⟩
    unfold step
    simp only [hg]
    show Out.sessInfo x.slot x.state x.flags = _
    rw [h1.1, ok.here _ _ hx]
  · show (fnClose e _ l.h).1 = _
    unfold fnClose
    have hss : (run M C O (St.init d) tr).getSessionSlot l.h = .ok (l.slot, sl) := by
      unfold St.getSession at hg
      split at hg
      · cases hg
      · rename_i i sl' hq
        split at hg
        · cases hg
        · injection hg with hg; injection hg with h1 h2; injection h2 with h2 h3
          rw [hq, h1, h2]
    rw [hss]
    simp only
    have hin : sl.token.isInitialized = true := ok.inited (by intro e; rw [e] at hx; cases hx)
    simp [hin]

/-- Any call naming a handle that is not in the notebook is refused for that reason and changes
nothing. -/
theorem C01_dead (d : List (Nat × Db)) (tr : Trace) (e : Env) (c : Call) (h : Nat) (hc : named c = some h)
    (hl : ∀ l ∈ (notes M C O d tr).live, l.h ≠ h) :
    (step M C O e (after M C O d tr) c = (.err .sessionHandleInvalid, after M C O d tr) ∨
     step M C O e (after M C O d tr) c = (.err .cryptokiNotInitialized, after M C O d tr)) := by
  have a := agree_reach (C := C) M O d tr
  have hm : AMap.get (run M C O (St.init d) tr).smap h = none := by
    cases hm : AMap.get (run M C O (St.init d) tr).smap h with
    | none => rfl
    | some i =>
      obtain ⟨l, hl1, e1, _⟩ := (a.map h i).2 hm
      exact absurd e1 (hl l hl1)
  obtain ⟨g1, g2⟩ := getSession_dead hm
  have key : ∀ x : Out × St, x = (.err (if (run M C O (St.init d) tr).ready then .sessionHandleInvalid else
      .cryptokiNotInitialized), run M C O (St.init d) tr) →
      x = (.err .sessionHandleInvalid, run M C O (St.init d) tr) ∨
      x = (.err .cryptokiNotInitialized, run M C O (St.init d) tr) := by
    intro x hx
    cases hr : (run M C O (St.init d) tr).ready
    · rw [hr] at hx; exact .inr hx
    · rw [hr] at hx; exact .inl hx
  apply key
  cases c <;> simp only [named, Option.some.injEq, reduceCtorEq] at hc <;> subst hc
  · show fnClose e _ _ = _; unfold fnClose; rw [g1]
  · show fnLogin C e _ _ _ _ = _; unfold fnLogin; rw [g2]
  · show fnLogout e _ _ = _; unfold fnLogout; rw [g2]
  · unfold step; simp only [g2]
  · unfold step; simp only [g2]

/-! ## C02 -/

/-- C_GetSessionInfo reports the state that belongs to who is logged in, in the variant the session was
opened with.  Missing (see the two theorems below): a session opened while the SO is logged in, and
sessions of a slot whose last C_Logout failed with CKR_GENERAL_ERROR. -/
theorem C02_partial (d : List (Nat × Db)) (tr : Trace) (e : Env) (l : Live)
    (h : l ∈ (notes M C O d tr).live)
    (hst : (notes M C O d tr).stale l.slot = false)
    (hso : (notes M C O d tr).who l.slot = some .so → l.late = false) :
    (step M C O e (after M C O d tr) (.sess l.h .getSessionInfo)).1 =
      .sessInfo l.slot (expected ((notes M C O d tr).who l.slot) (isRw l.flags)) l.flags := by
  have a := agree_reach (C := C) M O d tr
  have hi := inv_reach (C := C) M O d tr
  have hm := (a.map l.h l.slot).1 ⟨l, h, rfl, rfl⟩
  obtain ⟨sl, x, hg, hs, hx⟩ := getSession_live hi hm
  obtain ⟨x0, h1, h2⟩ := a.sess l h
  rw [vsess_at hs, hx] at h1
  simp only [Option.map_some, Option.some.injEq, Prod.mk.injEq] at h1
  have h2 := h2 hst
  unfold step
  simp only [hg]
  show Out.sessInfo x.slot x.state x.flags = _
  rw [h1.1, (hi.slot _ _ hs).here _ _ hx, h1.2, h2]
  unfold told
  rw [if_neg]
  rintro ⟨p, q⟩
  rw [hso p] at q; cases q

/-- A session opened while the SO is logged in reports that the normal user is logged in, whoever opens
it and whatever happened before. -/
theorem C02_late_session_reports_user (d : List (Nat × Db)) (tr : Trace) (e : Env) (l : Live)
    (h : l ∈ (notes M C O d tr).live) (hst : (notes M C O d tr).stale l.slot = false)
    (hso : (notes M C O d tr).who l.slot = some .so) (hl : l.late = true) :
    (step M C O e (after M C O d tr) (.sess l.h .getSessionInfo)).1 = .sessInfo l.slot .rwUser l.flags := by
  have a := agree_reach (C := C) M O d tr
  have hi := inv_reach (C := C) M O d tr
  have hm := (a.map l.h l.slot).1 ⟨l, h, rfl, rfl⟩
  obtain ⟨sl, x, hg, hs, hx⟩ := getSession_live hi hm
  obtain ⟨x0, h1, h2⟩ := a.sess l h
  rw [vsess_at hs, hx] at h1
  simp only [Option.map_some, Option.some.injEq, Prod.mk.injEq] at h1
  unfold step
  simp only [hg]
  show Out.sessInfo x.slot x.state x.flags = _
  rw [h1.1, (hi.slot _ _ hs).here _ _ hx, h1.2, h2 hst]
  simp [told, hso, hl]

/-- SO logged in with one R/W session, then a second one opened. -/
def exSoLate : Trace := exStart ++
  [(exEnv 6, .login 1 CKU_SO exSoPin), (exEnv 7, .openSession 7 (CKF_RW_SESSION ||| CKF_SERIAL_SESSION))]

set_option maxRecDepth 10000 in
/-- The English claim of C02 fails: the SO is logged in, and the session reports the user. -/
theorem C02_so_violation :
    (notes exMechs exCrypto exOracle [] exSoLate).who 7 = some .so ∧
    (step exMechs exCrypto exOracle (exEnv 9) (after exMechs exCrypto exOracle [] exSoLate)
      (.sess 2 .getSessionInfo)).1 = .sessInfo 7 .rwUser 6 ∧
    (step exMechs exCrypto exOracle (exEnv 9) (after exMechs exCrypto exOracle [] exSoLate)
      (.sess 1 .getSessionInfo)).1 = .sessInfo 7 .rwSo 6 := by decide +kernel

/-- The user logs in and out, but logging out fails in the storage. -/
def exBadLogout : Trace := exStart ++
  [(exEnv 6, .login 1 CKU_USER exPin), (exFail 7 [], .logout 1)]

set_option maxRecDepth 10000 in
/-- The English claim of C02 fails: nobody is logged in any more (C_Login of the SO is not refused
because of another user), and the session still reports the user. -/
theorem C02_failed_logout_violation :
    (outs exMechs exCrypto exOracle (St.init []) exBadLogout).getLast? = some (.err .generalError) ∧
    (notes exMechs exCrypto exOracle [] exBadLogout).who 7 = none ∧
    (step exMechs exCrypto exOracle (exEnv 9) (after exMechs exCrypto exOracle [] exBadLogout)
      (.sess 1 .getSessionInfo)).1 = .sessInfo 7 .rwUser 6 ∧
    (step exMechs exCrypto exOracle (exEnv 9) (after exMechs exCrypto exOracle [] exBadLogout)
      (.logout 1)).1 = .err .userNotLoggedIn := by decide +kernel

/-! ## C03 -/

/-- While the SO is logged in every open session of the slot is R/W. -/
theorem C03_no_ro_beside_so (d : List (Nat × Db)) (tr : Trace) (l : Live)
    (h : l ∈ (notes M C O d tr).live) (hso : (notes M C O d tr).who l.slot = some .so) :
    isRw l.flags = true := by
  have a := agree_reach (C := C) M O d tr
  have hi := inv_reach (C := C) M O d tr
  have hm := (a.map l.h l.slot).1 ⟨l, h, rfl, rfl⟩
  obtain ⟨sl, x, hg, hs, hx⟩ := getSession_live hi hm
  obtain ⟨x0, h1, _⟩ := a.sess l h
  rw [vsess_at hs, hx] at h1
  simp only [Option.map_some, Option.some.injEq, Prod.mk.injEq] at h1
  have ok := hi.slot _ _ hs
  rw [a.who, vlog_at hs] at hso
  have := ok.so hso _ _ hx
  rw [ok.rw _ _ hx, isRw_eq, h1.1] at this
  exact this

/-- C_OpenSession for an R/O session while the SO is logged in is refused and changes nothing. -/
theorem C03_open_refused (d : List (Nat × Db)) (tr : Trace) (e : Env) (slot flags : Nat)
    (hso : (notes M C O d tr).who slot = some .so) (hf : isRw flags = false) :
    step M C O e (after M C O d tr) (.openSession slot flags) =
      (.err .sessionReadWriteSoExists, after M C O d tr) := by
  have a := agree_reach (C := C) M O d tr
  have hi := inv_reach (C := C) M O d tr
  rw [a.who] at hso
  show fnOpen _ slot flags = _
  unfold vlog at hso
  cases hs : AMap.get (run M C O (St.init d) tr).slots slot with
  | none => rw [hs] at hso; cases hso
  | some sl =>
    rw [hs] at hso
    simp only at hso
    have ok := hi.slot _ _ hs
    have hne : sl.sessions ≠ [] := by intro e; rw [ok.out e] at hso; cases hso
    have hr : (run M C O (St.init d) tr).ready = true := by
      cases hr : (run M C O (St.init d) tr).ready with
      | true => rfl
      | false =>
        have := hi.off (by simpa [St.ready] using hr)
        rw [this.1] at hs; cases hs
    have hz : flags &&& CKF_RW_SESSION = 0 := by
      apply Nat.eq_of_testBit_eq
      intro i
      rw [Nat.testBit_and, show CKF_RW_SESSION = 2 ^ 1 from rfl, Nat.testBit_two_pow]
      by_cases e : 1 = i
      · subst e; simpa [isRw] using hf
      · simp [e]
    unfold fnOpen St.getSlot
    simp [hr, hs, ok.inited hne, hso, hz]

/-- C_Login of the SO while an R/O session is open on the slot is refused and changes nothing. -/
theorem C03_login_refused (d : List (Nat × Db)) (tr : Trace) (e : Env) (l l' : Live) (pin : Bytes)
    (h : l ∈ (notes M C O d tr).live) (h' : l' ∈ (notes M C O d tr).live) (hs' : l'.slot = l.slot)
    (hf : isRw l'.flags = false) :
    step M C O e (after M C O d tr) (.login l.h CKU_SO pin) =
      (.err .sessionReadOnlyExists, after M C O d tr) := by
  have a := agree_reach (C := C) M O d tr
  have hi := inv_reach (C := C) M O d tr
  have hm := (a.map l.h l.slot).1 ⟨l, h, rfl, rfl⟩
  obtain ⟨sl, x, hg, hs, hx⟩ := getSession_live hi hm
  obtain ⟨x0, h1, _⟩ := a.sess l' h'
  rw [hs', vsess_at hs] at h1
  have ok := hi.slot _ _ hs
  show fnLogin C e _ l.h CKU_SO pin = _
  unfold fnLogin
  rw [hg]
  have hro : sl.hasRo = true := by
    cases hx' : AMap.get sl.sessions l'.h with
    | none => rw [hx'] at h1; cases h1
    | some y =>
      rw [hx'] at h1
      simp only [Option.map_some, Option.some.injEq, Prod.mk.injEq] at h1
      have hw := ok.rw _ _ hx'
      rw [isRw_eq, h1.1, hf] at hw
      unfold Slot.hasRo
      rw [List.any_eq_true]
      refine ⟨(l'.h, y), AMap.get_mem hx', ?_⟩
      unfold Session.isWritable at hw
      cases hy : y.state <;> simp [hy] at hw ⊢
  simp [hro]

/-! ## C04 -/

/-- C_Login (not for a single operation) succeeds only when nobody is logged in, and afterwards the
given user and nobody else is. -/
theorem C04_login (d : List (Nat × Db)) (tr : Trace) (e : Env) (h ut : Nat) (pin : Bytes)
    (hc : ut ≠ CKU_CONTEXT_SPECIFIC)
    (hok : (step M C O e (after M C O d tr) (.login h ut pin)).1 = .ok) :
    ∃ l ∈ (notes M C O d tr).live, l.h = h ∧ (notes M C O d tr).who l.slot = none ∧
      ((ut = CKU_SO ∧ (notes M C O d (tr ++ [(e, .login h ut pin)])).who l.slot = some .so) ∨
       (ut = CKU_USER ∧ (notes M C O d (tr ++ [(e, .login h ut pin)])).who l.slot = some .user)) := by
  have a := agree_reach (C := C) M O d tr
  have hi := inv_reach (C := C) M O d tr
  have hist_app : hist M C O (St.init d) (tr ++ [(e, .login h ut pin)]) =
      hist M C O (St.init d) tr ++ [(.login h ut pin, .ok)] := by
    have : ∀ (s : St) (tr : Trace) (x : Env × Call), hist M C O s (tr ++ [x]) =
        hist M C O s tr ++ [(x.2, (step M C O x.1 (run M C O s tr) x.2).1)] := by
      intro s tr x
      induction tr generalizing s with
      | nil => rfl
      | cons p tr ih => obtain ⟨e, c⟩ := p; simp only [List.cons_append, hist, run, ih]
    rw [this, hok]
  have hnotes : notes M C O d (tr ++ [(e, .login h ut pin)]) =
      (notes M C O d tr).see (.login h ut pin, .ok) := by
    unfold notes observe
    rw [hist_app, List.foldl_append]
    rfl
  rw [hnotes]
  have hok : (fnLogin C e (run M C O (St.init d) tr) h ut pin).1 = .ok := hok
  unfold fnLogin at hok
  split at hok
  · cases hok
  · rename_i i sl x hg
    obtain ⟨hr, hm, hs, hx⟩ := getSession_ok hg
    obtain ⟨l, hl, e1, e2⟩ := (a.map h i).2 hm
    split at hok
    · cases hok
    · split at hok
      · cases hok
      · have b := login_ok_logged (C := C) (e := e.sub 0) (t := sl.token) (pin := pin) hc
        generalize sl.token.login C (e.sub 0) ut pin = p at b hok
        obtain ⟨r, t⟩ := p
        simp only at b hok
        rcases b with ⟨r', rfl, b⟩ | ⟨u, hu, hlo, rfl, b⟩
        · cases hok
        · refine ⟨l, hl, e1, by rw [a.who, e2, vlog_at hs, hlo], ?_⟩
          rw [see_login_ok hu]
          have hw : ∀ v, ((notes M C O d tr).setWho h v false).who l.slot = v := by
            intro v
            unfold Obs.setWho
            rcases slotsOf_eq a hm with e | ⟨t, e⟩
            all_goals
              have e : (notes M C O d tr).slotsOf h = _ := e
              rw [e]
              simp [setAt, e2]
          rw [hw]
          rcases userOf_inv hu with ⟨rfl, rfl⟩ | ⟨rfl, rfl⟩
          · exact .inl ⟨rfl, rfl⟩
          · exact .inr ⟨rfl, rfl⟩

/-- While no session of a slot is open nobody is logged in to its token. -/
theorem C04_nobody_without_session (d : List (Nat × Db)) (tr : Trace) (slot : Nat)
    (h : ∀ l ∈ (notes M C O d tr).live, l.slot ≠ slot) : (notes M C O d tr).who slot = none := by
  have a := agree_reach (C := C) M O d tr
  have hi := inv_reach (C := C) M O d tr
  rw [a.who]
  unfold vlog
  cases hs : AMap.get (run M C O (St.init d) tr).slots slot with
  | none => rfl
  | some sl =>
    refine (hi.slot _ _ hs).out ?_
    apply AMap.eq_nil_of_get
    intro k
    cases hk : AMap.get sl.sessions k with
    | none => rfl
    | some x =>
      obtain ⟨l, hl, e1, e2⟩ := (a.map k slot).2 ((hi.link k slot).2 ⟨sl, x, hs, hk⟩)
      exact absurd e2 (h l hl)

theorem run_snoc (s : St) (tr : Trace) (x : Env × Call) : run M C O s (tr ++ [x]) =
    (step M C O x.1 (run M C O s tr) x.2).2 := by
  induction tr generalizing s with
  | nil => rfl
  | cons p tr ih => obtain ⟨e, c⟩ := p; simp only [List.cons_append, run, ih]

theorem hist_snoc (s : St) (tr : Trace) (x : Env × Call) : hist M C O s (tr ++ [x]) =
    hist M C O s tr ++ [(x.2, (step M C O x.1 (run M C O s tr) x.2).1)] := by
  induction tr generalizing s with
  | nil => rfl
  | cons p tr ih => obtain ⟨e, c⟩ := p; simp only [List.cons_append, hist, run, ih]

/-- The first session of a slot starts in the public state: closing the last session, by whatever
calls, ended the login. -/
theorem C04_first_session_public (d : List (Nat × Db)) (tr : Trace) (e e' : Env) (slot flags n : Nat)
    (h : ∀ l ∈ (notes M C O d tr).live, l.slot ≠ slot)
    (ho : (step M C O e (after M C O d tr) (.openSession slot flags)).1 = .handle n) :
    (step M C O e' (after M C O d (tr ++ [(e, .openSession slot flags)])) (.sess n .getSessionInfo)).1 =
      .sessInfo slot (if isRw flags then .rwPublic else .roPublic) flags := by
  have hw := C04_nobody_without_session M C O d tr slot h
  have hn : notes M C O d (tr ++ [(e, .openSession slot flags)]) =
      (notes M C O d tr).see (.openSession slot flags, .handle n) := by
    unfold notes observe
    rw [hist_snoc, List.foldl_append, ho]; rfl
  have hl : (⟨n, slot, flags, false⟩ : Live) ∈ (notes M C O d (tr ++ [(e, .openSession slot flags)])).live := by
    rw [hn]; simp only [Obs.see, hw]; exact List.mem_cons_self
  have hst : (notes M C O d (tr ++ [(e, .openSession slot flags)])).who slot = none := by
    rw [hn]; exact hw
  have a := agree_reach (C := C) M O d (tr ++ [(e, .openSession slot flags)])
  have hi := inv_reach (C := C) M O d (tr ++ [(e, .openSession slot flags)])
  -- the state of a session just opened does not depend on the notebook's `stale`
  have hm := (a.map n slot).1 ⟨_, hl, rfl, rfl⟩
  have hopen : (run M C O (St.init d) (tr ++ [(e, .openSession slot flags)])) =
      (fnOpen (run M C O (St.init d) tr) slot flags).2 := run_snoc M C O _ _ _
  have ho : (fnOpen (run M C O (St.init d) tr) slot flags).1 = .handle n := ho
  have a0 := agree_reach (C := C) M O d tr
  have hi0 := inv_reach (C := C) M O d tr
  rw [a0.who] at hw
  obtain ⟨sl, x, hg, hs, hx⟩ := getSession_live hi hm
  have ok := hi.slot _ _ hs
  unfold after step
  simp only [hg]
  show Out.sessInfo x.slot x.state x.flags = _
  rw [ok.here _ _ hx]
  rw [hopen] at hs
  unfold fnOpen at hs ho
  cases hgs : (run M C O (St.init d) tr).getSlot slot with
  | error r => rw [hgs] at ho; cases ho
  | ok sl0 =>
    obtain ⟨_, hs0⟩ := getSlot_ok hgs
    rw [vlog_at hs0] at hw
    simp only [hgs, hw] at hs ho
    split at ho
    · cases ho
    · rename_i hin
      simp only [hin, reduceCtorEq, false_and, if_false] at hs ho
      cases hnew : Session.new slot none flags with
      | error r => rw [hnew] at ho; cases ho
      | ok y =>
        rw [hnew] at hs ho
        simp only at hs
        injection ho with ho
        have hs : AMap.get (AMap.modify (run M C O (St.init d) tr).slots slot fun _ =>
          { sl0 with sessions := AMap.insert sl0.sessions (run M C O (St.init d) tr).next y }) slot = some sl := hs
        rw [AMap.get_modify, if_pos rfl, hs0] at hs
        simp only [Option.map_some, Option.some.injEq] at hs
        subst hs
        simp only [AMap.get_insert, ho, if_true, Option.some.injEq] at hx
        subst hx
        obtain ⟨n1, n2, n3, n4, n5, _⟩ := new_session hnew
        rw [n2]
        have : y.state = if isRw flags then .rwPublic else .roPublic := by
          rw [isRw_eq] at n3
          rcases n5 rfl with h | h
          · rw [h]; unfold Session.isWritable at n3; rw [h] at n3; simp at n3; simp [← n3]
          · rw [h]; unfold Session.isWritable at n3; rw [h] at n3; simp at n3; simp [← n3]
        rw [this]

/-! ## Non-vacuity -/

set_option maxRecDepth 10000

/-- Two slots, sessions opened and closed; handles never come back. -/
def exHandles : Trace :=
  [(exEnv 0, .initialize (exConf ++ [(8, ⟨[], none, none⟩)])), (exEnv 1, .initToken 7 exSoPin none),
   (exEnv 2, .initToken 8 exSoPin none), (exEnv 3, .openSession 7 4), (exEnv 4, .openSession 8 6),
   (exEnv 5, .closeSession 1), (exEnv 6, .openSession 7 6), (exEnv 7, .closeAll 8)]

/-- `C01_fresh`, `C01_live` and `C01_dead` meet cases: handle 4 comes next, 3 is alive, 1 and 2 are not. -/
example : (step exMechs exCrypto exOracle (exEnv 9) (after exMechs exCrypto exOracle [] exHandles)
      (.openSession 8 4)).1 = .handle 4 ∧
    (notes exMechs exCrypto exOracle [] exHandles).issued = [3, 2, 1] ∧
    (notes exMechs exCrypto exOracle [] exHandles).live = [⟨3, 7, 6, false⟩] ∧
    (step exMechs exCrypto exOracle (exEnv 9) (after exMechs exCrypto exOracle [] exHandles)
      (.sess 3 .getSessionInfo)).1 = .sessInfo 7 .rwPublic 6 ∧
    (step exMechs exCrypto exOracle (exEnv 9) (after exMechs exCrypto exOracle [] exHandles)
      (.sess 2 .getSessionInfo)).1 = .err .sessionHandleInvalid := by decide +kernel

/-- `C02_partial` and the C03 refusals meet cases: an R/O session, the user logged in, the SO refused. -/
def exRo : Trace := exStart ++
  [(exEnv 6, .openSession 7 4), (exEnv 7, .login 2 CKU_USER exPin)]

example : (notes exMechs exCrypto exOracle [] exRo).live = [⟨2, 7, 4, false⟩, ⟨1, 7, 6, false⟩] ∧
    (notes exMechs exCrypto exOracle [] exRo).who 7 = some .user ∧
    (notes exMechs exCrypto exOracle [] exRo).stale 7 = false ∧
    (step exMechs exCrypto exOracle (exEnv 9) (after exMechs exCrypto exOracle [] exRo)
      (.sess 2 .getSessionInfo)).1 = .sessInfo 7 .roUser 4 ∧
    (step exMechs exCrypto exOracle (exEnv 9) (after exMechs exCrypto exOracle [] exRo)
      (.login 1 CKU_SO exSoPin)).1 = .err .sessionReadOnlyExists ∧
    (step exMechs exCrypto exOracle (exEnv 9) (after exMechs exCrypto exOracle [] exSoLate)
      (.openSession 7 4)).1 = .err .sessionReadWriteSoExists ∧
    (notes exMechs exCrypto exOracle [] exSoLate).live = [⟨2, 7, 6, true⟩, ⟨1, 7, 6, false⟩] := by
  decide +kernel

/-- `C04_login` and `C04_first_session_public` meet cases: after the user's only session is closed and
a session is opened, it is public and the SO can log in. -/
def exLast : Trace := exStart ++
  [(exEnv 6, .login 1 CKU_USER exPin), (exEnv 7, .closeSession 1)]

example : (notes exMechs exCrypto exOracle [] exLast).live = [] ∧
    (step exMechs exCrypto exOracle (exEnv 8) (after exMechs exCrypto exOracle [] exLast)
      (.openSession 7 6)).1 = .handle 2 ∧
    exOuts (exLast ++ [(exEnv 8, .openSession 7 6), (exEnv 9, .sess 2 .getSessionInfo),
      (exEnv 10, .login 2 CKU_SO exSoPin)]) =
      [.ok, .ok, .handle 1, .ok, .ok, .ok, .ok, .ok, .handle 2, .sessInfo 7 .rwPublic 6, .ok] := by
  decide +kernel

end Kry
