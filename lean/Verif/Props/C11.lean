import Verif.Props.C10

/-!
# C11: the life of session objects

`Spec.sessionObj s i n` is the session object behind handle `n` of slot `i`; its `session` is the session
that made it (0 for the built-in profile and mechanism objects, which belong to the token).
-/

namespace Kry

open Spec

variable (M : Mechs) (C : Crypto) (O : Oracle)

/-- An object made by a call on session `h` belongs to `h`. -/
theorem C11_owner (d : List (Nat × Db)) (tr : Trace) (e : Env) (c : Call) (i n : Nat) (o : Obj)
    (ho : onSlot M C O (after M C O d tr) (caller c) i) (hm : makes c = true)
    (hg : n ∈ gives (step M C O e (after M C O d tr) c).1)
    (hdd : ∀ sl, AMap.get (after M C O d tr).slots i = some sl → sl.token.cfg.dedup = none)
    (hs : sessionObj (step M C O e (after M C O d tr) c).2 i n = some o) : o.session = caller c := by
  have hi := inv_reach (C := C) M O d tr
  have hv := hinv_reach (C := C) M O d tr
  have hm2 := (onSlot_iff hi).1 ho
  obtain ⟨sl, x, _, h1, _⟩ := getSession_live hi hm2
  have hcl : calm i c = true := by cases c <;> first | rfl | cases hm
  obtain ⟨sl', h1', go⟩ := step_go (M := M) (C := C) (O := O) (e := e) hi h1 hcl
  obtain ⟨_, st⟩ := go (hv i sl h1).ok
  have h0 : caller c ≠ 0 := by
    intro h
    have := (hi.bound _ _ hm2)
    omega
  unfold sessionObj at hs
  rw [h1'] at hs
  exact st.newS n o (((step_gives hi hv h0 hm2 h1 h1' hg).2 hm).2 (hdd sl h1)) hs

/-- Until it is ended, a session object is there, with the same owner, for every session of the token:
C_GetObjectSize answers with its size. -/
theorem C11_usable (d : List (Nat × Db)) (tr₁ tr₂ : Trace) (e : Env) (i n h : Nat) (o : Obj)
    (hso : sessionObj (after M C O d tr₁) i n = some o) (hc : ∀ p ∈ tr₂, calm i p.2 = true)
    (hsp : spared M C O i n (after M C O d tr₁) tr₂)
    (ho : onSlot M C O (run M C O (after M C O d tr₁) tr₂) h i) :
    (∃ o', sessionObj (run M C O (after M C O d tr₁) tr₂) i n = some o' ∧ o'.session = o.session) ∧
    ∃ k, (step M C O e (run M C O (after M C O d tr₁) tr₂) (.sess h (.getObjectSize n))).1 = .size k := by
  have hi := inv_reach (C := C) M O d tr₁
  have hv := hinv_reach (C := C) M O d tr₁
  have hi2 := inv_run (C := C) M O tr₂ _ hi
  unfold sessionObj at hso
  cases h1 : AMap.get (run M C O (St.init d) tr₁).slots i with
  | none => rw [h1] at hso; cases hso
  | some sl =>
    rw [h1] at hso
    obtain ⟨_, u, hu, _⟩ := (hv i sl h1).ok.sess n o hso
    obtain ⟨sl', s', g', k⟩ := run_spared tr₂ hi hv h1 hc hsp hu
    obtain ⟨o', k1, k2⟩ := k o hso
    refine ⟨⟨o', ?_, k2⟩, ?_⟩
    · unfold sessionObj; rw [s']; exact k1
    · obtain ⟨sl2, x, g1, g2, g3⟩ := getSession_live hi2 ((onSlot_iff hi2).1 ho)
      rw [s'] at g2; injection g2 with g2; subst g2
      have hin : sl'.token.isInitialized = true :=
        (hi2.slot i sl' s').inited (by intro e; rw [e] at g3; cases g3)
      refine ⟨o'.roughSize, ?_⟩
      simp only [step, g1, sessStep, hin, Token.getObjectSize, k1]
      rfl

/-- What is true of a handle after its end: every call on a session of the slot that names it fails and
changes nothing, and no search begun from now on lists it — for ever, as long as the library is not left
and the token not initialised again. -/
def Ended (i n : Nat) (s : St) : Prop :=
  ∀ tr, (∀ p ∈ tr, calm i p.2 = true) →
    (∀ e c, onSlot M C O (run M C O s tr) (caller c) i → n ∈ names c →
      refusal (step M C O e (run M C O s tr) c).1 = true ∧
      (step M C O e (run M C O s tr) c).2 = run M C O s tr) ∧
    (∀ e e' h k tm tr' l, (∀ p ∈ tr', calm i p.2 = true) → onSlot M C O (run M C O s tr) h i →
      (step M C O e (run M C O s tr) (.sess h (.findInit tm))).1 = .ok →
      onSlot M C O (run M C O (step M C O e (run M C O s tr) (.sess h (.findInit tm))).2 tr') h i →
      (step M C O e' (run M C O (step M C O e (run M C O s tr) (.sess h (.findInit tm))).2 tr')
        (.sess h (.find k))).1 = .handles l → n ∉ l)

theorem ended_of_dead {s : St} {i n : Nat} (hi : Inv s) (hv : HInv s) (hd : Dead s i n) :
    Ended M C O i n s := by
  intro tr hc
  have hi1 := inv_run (C := C) M O tr _ hi
  have hv1 := hinv_run (C := C) M O tr _ hi hv
  have hd1 := dead_run (M := M) (C := C) (O := O) tr hi hv hc hd
  constructor
  · intro e c ho hn
    obtain ⟨sl, hs, _, hg⟩ := hd1
    exact call_refused hi1 hs ((onSlot_iff hi1).1 ho) (noObj_dead (hv1 i sl hs).ok hg) hn
  · intro e e' h k tm tr' l hc' ho hok ho' hf
    have hi2 := inv_step (C := C) M O e _ (.sess h (.findInit tm)) hi1
    have hv2 := hinv_step (C := C) M O e _ (.sess h (.findInit tm)) hi1 hv1
    have hm := (onSlot_iff hi1).1 ho
    have hd2 := dead_step (M := M) (C := C) (O := O) (e := e) (c := .sess h (.findInit tm)) hi1 hv1 rfl hd1
    have hu := init_unlisted hi1 hv1 hd1 hm hok
    have hu' := unlisted_run (M := M) (C := C) (O := O) tr' hi2 hv2 hc' hd2 hu
    exact find_unlisted hu' ((onSlot_iff (inv_run (C := C) M O tr' _ hi2)).1 ho') hf

/-- Destroying an object ends it. -/
theorem C11_destroyed (d : List (Nat × Db)) (tr : Trace) (e : Env) (i n h : Nat)
    (ho : onSlot M C O (after M C O d tr) h i)
    (hk : (step M C O e (after M C O d tr) (.sess h (.destroyObject n))).1 = .ok) :
    Ended M C O i n (step M C O e (after M C O d tr) (.sess h (.destroyObject n))).2 := by
  have hi := inv_reach (C := C) M O d tr
  have hv := hinv_reach (C := C) M O d tr
  exact ended_of_dead M C O (inv_step M O e _ _ hi) (hinv_step M O e _ _ hi hv)
    (destroy_dead hi hv ((onSlot_iff hi).1 ho) hk)

/-- Closing the session that made it ends a session object. -/
theorem C11_closed (d : List (Nat × Db)) (tr : Trace) (e : Env) (i n h : Nat) (o : Obj)
    (hso : sessionObj (after M C O d tr) i n = some o) (he : o.session = h)
    (ho : onSlot M C O (after M C O d tr) h i)
    (hk : (step M C O e (after M C O d tr) (.closeSession h)).1 = .ok) :
    Ended M C O i n (step M C O e (after M C O d tr) (.closeSession h)).2 := by
  have hi := inv_reach (C := C) M O d tr
  have hv := hinv_reach (C := C) M O d tr
  exact ended_of_dead M C O (inv_step M O e _ _ hi) (hinv_step M O e _ _ hi hv)
    (close_dead hi hv hso he ((onSlot_iff hi).1 ho) hk)

/-- C_CloseAllSessions ends every session object. -/
theorem C11_allClosed (d : List (Nat × Db)) (tr : Trace) (e : Env) (i n : Nat) (o : Obj)
    (hso : sessionObj (after M C O d tr) i n = some o) (h0 : o.session ≠ 0)
    (hk : (step M C O e (after M C O d tr) (.closeAll i)).1 = .ok) :
    Ended M C O i n (step M C O e (after M C O d tr) (.closeAll i)).2 := by
  have hi := inv_reach (C := C) M O d tr
  have hv := hinv_reach (C := C) M O d tr
  exact ended_of_dead M C O (inv_step M O e _ _ hi) (hinv_step M O e _ _ hi hv)
    (closeAll_dead hv hso h0 hk)

/-- Logging out ends the private session objects. -/
theorem C11_loggedOut (d : List (Nat × Db)) (tr : Trace) (e : Env) (i n h : Nat) (o : Obj)
    (hso : sessionObj (after M C O d tr) i n = some o) (h0 : o.session ≠ 0) (hp : o.isPrivate = true)
    (ho : onSlot M C O (after M C O d tr) h i)
    (hk : (step M C O e (after M C O d tr) (.logout h)).1 = .ok) :
    Ended M C O i n (step M C O e (after M C O d tr) (.logout h)).2 := by
  have hi := inv_reach (C := C) M O d tr
  have hv := hinv_reach (C := C) M O d tr
  exact ended_of_dead M C O (inv_step M O e _ _ hi) (hinv_step M O e _ _ hi hv)
    (logout_dead hi hv hso h0 hp ((onSlot_iff hi).1 ho) hk)

/-- Closing a session removes nothing else: the session objects of other sessions are the same objects
(unless it was the last session, when the user is logged out and private session objects end), and the
token objects and their handles are the same. -/
theorem C11_othersStay (d : List (Nat × Db)) (tr : Trace) (e : Env) (i n h : Nat) (sl sl' : Slot)
    (hs : AMap.get (after M C O d tr).slots i = some sl)
    (hs' : AMap.get (step M C O e (after M C O d tr) (.closeSession h)).2.slots i = some sl') :
    sl'.token.store.db = sl.token.store.db ∧
    (∀ o, AMap.get sl.token.sess n = some o → o.session ≠ h →
      (o.session = 0 ∨ o.isPrivate = false ∨ ∃ h' x, h' ≠ h ∧ AMap.get sl.sessions h' = some x) →
      AMap.get sl'.token.sess n = some o ∧ sl'.token.handles.get n = sl.token.handles.get n) ∧
    (AMap.get sl.token.sess n = none → sl'.token.handles.get n = sl.token.handles.get n) := by
  have hi : Inv (after M C O d tr) := inv_reach (C := C) M O d tr
  have hv : HInv (after M C O d tr) := hinv_reach (C := C) M O d tr
  generalize after M C O d tr = s at *
  have ok := (hv i sl hs).ok
  have drop := drop_keep (h := h) (n := n) ok
  have lo := logout_keep e n
  have hs' : AMap.get (fnClose e s h).2.slots i = some sl' := hs'
  unfold fnClose at hs'
  split at hs'
  · rw [hs] at hs'; injection hs' with hs'; subst hs'; exact ⟨rfl, fun o ho _ _ => ⟨ho, rfl⟩, fun _ => rfl⟩
  · rename_i j slj hgs
    obtain ⟨_, hm, hsj⟩ := getSessionSlot_ok hgs
    split at hs'
    · rw [hs] at hs'; injection hs' with hs'; subst hs'; exact ⟨rfl, fun o ho _ _ => ⟨ho, rfl⟩, fun _ => rfl⟩
    · by_cases ij : j = i
      · subst ij
        rw [hs] at hsj; injection hsj with hsj; subst hsj
        extract_lets t0 ss t1 at hs'
        have hs' : AMap.get (s.setSlot j ⟨t1, ss⟩).slots j = some sl' := hs'
        rw [get_setSlot hs, if_pos rfl] at hs'
        injection hs' with hs'
        have hdb : (sl.token.dropSessionObjects h).store.db = sl.token.store.db := rfl
        rw [← hs']
        simp only [t1]
        split
        · rename_i hnil
          have hsub := lo t0 (by
            exact (hok_drop ok).nd)
          refine ⟨hsub.1.trans hdb, ?_, ?_⟩
          · intro o ho hne hp
            obtain ⟨d1, d2⟩ := drop.1 o ho hne
            have hp : o.session = 0 ∨ o.isPrivate = false := by
              rcases hp with hp | hp | ⟨h', x, h1, h2⟩
              · exact .inl hp
              · exact .inr hp
              · have := AMap.get_erase sl.sessions h h'
                have hh : AMap.get ss h' = some x := by
                  simp only [ss]
                  rw [AMap.get_erase, if_neg (fun e => h1 e.symm)]; exact h2
                rw [hnil] at hh; cases hh
            obtain ⟨e1, e2⟩ := hsub.2.1 o d1 hp
            exact ⟨e1, e2.trans d2⟩
          · intro ho
            obtain ⟨d1, d2⟩ := drop.2 ho
            exact (hsub.2.2 d1).trans d2
        · exact ⟨hdb, fun o ho hne _ => drop.1 o ho hne, fun ho => (drop.2 ho).2⟩
      · have hs' : AMap.get (s.setSlot j _).slots i = some sl' := hs'
        rw [get_setSlot_ne ij, hs] at hs'
        injection hs' with hs'; subst hs'; exact ⟨rfl, fun o ho _ _ => ⟨ho, rfl⟩, fun _ => rfl⟩

end Kry
