import Verif.Proofs.Dead
import Verif.Props.Sessions

/-!
# C10: what an object handle denotes

The identity of an object is the CKA_UNIQUE_ID that C_GetAttributeValue reports for it (`Spec.reports`).
`tr₁` is any history at all; `tr₂` a continuation in which the library is not left and the token of slot
`i` is not initialised again (`Spec.calm`).  The files on disk at the beginning are arbitrary tables with
distinct rows (`TblOk`, the constraints of the SQLite schema).
-/

namespace Kry

open Spec

variable (M : Mechs) (C : Crypto) (O : Oracle)

/-- A handle denotes one object for ever: whenever and on whatever session of the slot it is looked up,
it is the same unique id. -/
theorem C10_one_object (d : List (Nat × Db)) (hd : ∀ p ∈ d, TblOk p.2.objs) (tr₁ tr₂ : Trace)
    (i n h₁ h₂ : Nat) (u₁ u₂ : Bytes) (hc : ∀ p ∈ tr₂, calm i p.2 = true)
    (o₁ : onSlot M C O (after M C O d tr₁) h₁ i)
    (o₂ : onSlot M C O (run M C O (after M C O d tr₁) tr₂) h₂ i)
    (r₁ : reports M C O (after M C O d tr₁) h₁ n CKA_UNIQUE_ID u₁)
    (r₂ : reports M C O (run M C O (after M C O d tr₁) tr₂) h₂ n CKA_UNIQUE_ID u₂) : u₁ = u₂ := by
  have hi := inv_reach (C := C) M O d tr₁
  have hv := hinv_reach (C := C) M O d tr₁
  have ht := tinv_reach (C := C) M O hd tr₁
  have hi2 := inv_run (C := C) M O tr₂ _ hi
  have hv2 := hinv_run (C := C) M O tr₂ _ hi hv
  have ht2 := tinv_run (C := C) M O tr₂ _ hi ht
  obtain ⟨j, sl, m1, s1, g1⟩ := reports_uid hi hv ht r₁
  rw [(onSlot_iff hi).1 o₁] at m1; injection m1 with m1; subst m1
  obtain ⟨j, sl2, m2, s2, g2⟩ := reports_uid hi2 hv2 ht2 r₂
  rw [(onSlot_iff hi2).1 o₂] at m2; injection m2 with m2; subst m2
  obtain ⟨sl', s', st, _⟩ := run_go (M := M) (C := C) (O := O) tr₂ hi hv s1 hc
  rw [s'] at s2; injection s2 with s2; subst s2
  have := st.old n u₂ ((hv _ _ s1).ok.hs.low n u₁ g1).2 g2
  rw [g1] at this
  injection this

/-- An object has one handle. -/
theorem C10_one_handle (d : List (Nat × Db)) (hd : ∀ p ∈ d, TblOk p.2.objs) (tr : Trace)
    (i n₁ n₂ h₁ h₂ : Nat) (u : Bytes)
    (o₁ : onSlot M C O (after M C O d tr) h₁ i) (o₂ : onSlot M C O (after M C O d tr) h₂ i)
    (r₁ : reports M C O (after M C O d tr) h₁ n₁ CKA_UNIQUE_ID u)
    (r₂ : reports M C O (after M C O d tr) h₂ n₂ CKA_UNIQUE_ID u) : n₁ = n₂ := by
  have hi := inv_reach (C := C) M O d tr
  have hv := hinv_reach (C := C) M O d tr
  have ht := tinv_reach (C := C) M O hd tr
  obtain ⟨j, sl, m1, s1, g1⟩ := reports_uid hi hv ht r₁
  rw [(onSlot_iff hi).1 o₁] at m1; injection m1 with m1; subst m1
  obtain ⟨j, sl2, m2, s2, g2⟩ := reports_uid hi hv ht r₂
  rw [(onSlot_iff hi).1 o₂] at m2; injection m2 with m2; subst m2
  rw [s1] at s2; injection s2 with s2; subst s2
  exact (hv _ _ s1).ok.hs.inj g1 g2

/-- The handle of an object stays the same as long as nothing ends it, so that every later search that
finds the object returns the same handle. -/
theorem C10_stable (d : List (Nat × Db)) (hd : ∀ p ∈ d, TblOk p.2.objs) (tr₁ tr₂ : Trace)
    (i n m h₁ h₂ : Nat) (u : Bytes) (hc : ∀ p ∈ tr₂, calm i p.2 = true)
    (hsp : spared M C O i n (after M C O d tr₁) tr₂)
    (o₁ : onSlot M C O (after M C O d tr₁) h₁ i)
    (o₂ : onSlot M C O (run M C O (after M C O d tr₁) tr₂) h₂ i)
    (r₁ : reports M C O (after M C O d tr₁) h₁ n CKA_UNIQUE_ID u)
    (r₂ : reports M C O (run M C O (after M C O d tr₁) tr₂) h₂ m CKA_UNIQUE_ID u) : m = n := by
  have hi := inv_reach (C := C) M O d tr₁
  have hv := hinv_reach (C := C) M O d tr₁
  have ht := tinv_reach (C := C) M O hd tr₁
  have hi2 := inv_run (C := C) M O tr₂ _ hi
  have hv2 := hinv_run (C := C) M O tr₂ _ hi hv
  have ht2 := tinv_run (C := C) M O tr₂ _ hi ht
  obtain ⟨j, sl, m1, s1, g1⟩ := reports_uid hi hv ht r₁
  rw [(onSlot_iff hi).1 o₁] at m1; injection m1 with m1; subst m1
  obtain ⟨j, sl2, m2, s2, g2⟩ := reports_uid hi2 hv2 ht2 r₂
  rw [(onSlot_iff hi2).1 o₂] at m2; injection m2 with m2; subst m2
  obtain ⟨sl', s', g', _⟩ := run_spared tr₂ hi hv s1 hc hsp g1
  rw [s'] at s2; injection s2 with s2; subst s2
  exact (hv2 _ _ s').ok.hs.inj g2 g'

/-- A handle given out is below the counter. -/
theorem given_low (tr : Trace) {s : St} {i n : Nat} (hi : Inv s) (hv : HInv s)
    (hc : ∀ p ∈ tr, calm i p.2 = true) (hg : given M C O i n s tr) :
    ∃ sl, AMap.get (run M C O s tr).slots i = some sl ∧ n < sl.token.handles.next := by
  induction tr generalizing s with
  | nil => cases hg
  | cons p tr ih =>
    obtain ⟨e, c⟩ := p
    have hi' := inv_step (C := C) M O e s c hi
    have hv' := hinv_step (C := C) M O e s c hi hv
    have hc' : ∀ p ∈ tr, calm i p.2 = true := fun p hp => hc p (List.mem_cons_of_mem _ hp)
    rcases hg with ⟨h0, ho, hn⟩ | hg
    · have hm := (onSlot_iff hi).1 ho
      obtain ⟨sl, x, _, hs, _⟩ := getSession_live hi hm
      obtain ⟨sl1, hs1, _⟩ := step_go (M := M) (C := C) (O := O) (e := e) hi hs (hc _ (List.mem_cons_self ..))
      have := (step_gives hi hv h0 hm hs hs1 hn).1
      obtain ⟨sl2, hs2, st, _⟩ := run_go (M := M) (C := C) (O := O) tr hi' hv' hs1 hc'
      exact ⟨sl2, hs2, Nat.lt_of_lt_of_le this st.next⟩
    · exact ih hi' hv' hc' hg

/-- A creating call never answers with a handle that was answered before — by a creation or by a
search.  (With de-duplication configured, C_CreateObject may by design answer with the handle of an
existing object; see `C10_dead` for that case.) -/
theorem C10_fresh (d : List (Nat × Db)) (tr₁ tr₂ : Trace) (e : Env) (c : Call) (i n : Nat)
    (hc : ∀ p ∈ tr₂, calm i p.2 = true) (hg : given M C O i n (after M C O d tr₁) tr₂)
    (ho : onSlot M C O (run M C O (after M C O d tr₁) tr₂) (caller c) i) (hm : makes c = true)
    (hdd : ∀ sl, AMap.get (run M C O (after M C O d tr₁) tr₂).slots i = some sl → sl.token.cfg.dedup = none) :
    n ∉ gives (step M C O e (run M C O (after M C O d tr₁) tr₂) c).1 := by
  have hi := inv_reach (C := C) M O d tr₁
  have hv := hinv_reach (C := C) M O d tr₁
  have hi2 := inv_run (C := C) M O tr₂ _ hi
  have hv2 := hinv_run (C := C) M O tr₂ _ hi hv
  obtain ⟨sl, hs, hn⟩ := given_low M C O tr₂ hi hv hc hg
  have hcl : calm i c = true := by cases c <;> first | rfl | cases hm
  have hm2 := (onSlot_iff hi2).1 ho
  have h0 : caller c ≠ 0 := by
    intro h
    have := (hi2.bound _ _ hm2)
    omega
  obtain ⟨sl', hs', _⟩ := step_go (M := M) (C := C) (O := O) (e := e) hi2 hs hcl
  intro hmem
  have := ((step_gives hi2 hv2 h0 hm2 hs hs' hmem).2 hm).2 (hdd sl hs)
  omega

/-- The handle of a destroyed object is never given again to a new object (for searches see
`C20_unfound`). -/
theorem C10_dead (d : List (Nat × Db)) (tr₁ tr₂ : Trace) (e e' : Env) (c : Call) (i n h : Nat)
    (ho : onSlot M C O (after M C O d tr₁) h i)
    (hk : (step M C O e (after M C O d tr₁) (.sess h (.destroyObject n))).1 = .ok)
    (hc : ∀ p ∈ tr₂, calm i p.2 = true)
    (ho' : onSlot M C O (run M C O (step M C O e (after M C O d tr₁) (.sess h (.destroyObject n))).2 tr₂)
      (caller c) i) (hm : makes c = true) :
    n ∉ gives (step M C O e' (run M C O (step M C O e (after M C O d tr₁)
      (.sess h (.destroyObject n))).2 tr₂) c).1 := by
  have hi := inv_reach (C := C) M O d tr₁
  have hv := hinv_reach (C := C) M O d tr₁
  have hi1 := inv_step (C := C) M O e _ (.sess h (.destroyObject n)) hi
  have hv1 := hinv_step (C := C) M O e _ (.sess h (.destroyObject n)) hi hv
  have hi2 := inv_run (C := C) M O tr₂ _ hi1
  have hv2 := hinv_run (C := C) M O tr₂ _ hi1 hv1
  have dead := dead_run (M := M) (C := C) (O := O) tr₂ hi1 hv1 hc
    (destroy_dead (M := M) (O := O) hi hv ((onSlot_iff hi).1 ho) hk)
  have hcl : calm i c = true := by cases c <;> first | rfl | cases hm
  have dead' := dead_step (M := M) (C := C) (O := O) (e := e') hi2 hv2 hcl dead
  obtain ⟨sl, hs, _, _⟩ := dead
  obtain ⟨sl', hs', _, hno⟩ := dead'
  have hm2 := (onSlot_iff hi2).1 ho'
  have h0 : caller c ≠ 0 := by
    intro h
    have := (hi2.bound _ _ hm2)
    omega
  intro hmem
  obtain ⟨u, hu⟩ := ((step_gives hi2 hv2 h0 hm2 hs hs' hmem).2 hm).1
  rw [hno] at hu; cases hu

/-! ## A concrete history

A token with two data objects (handles 8 and 9; the smaller ones are the built-in profile and mechanism
objects). -/

/-- A data object on the token that may be destroyed. -/
def exTokData (v : UInt8) : Template :=
  [.ofUlong CKA_CLASS CKO_DATA, .mk' CKA_VALUE [v], .ofBool CKA_TOKEN true, .ofBool CKA_PRIVATE false,
   .ofBool CKA_DESTROYABLE true]

/-- The same as a session object. -/
def exSesData (v : UInt8) : Template :=
  [.ofUlong CKA_CLASS CKO_DATA, .mk' CKA_VALUE [v], .ofBool CKA_PRIVATE false, .ofBool CKA_DESTROYABLE true]

/-- Login, two token objects, a search for them. -/
def exTwo : Trace := exStart ++
  [(exEnv 6, .login 1 CKU_USER exPin), (exEnv 7, .sess 1 (.createObject (exTokData 1))),
   (exEnv 8, .sess 1 (.createObject (exTokData 2)))]

def exFind : Trace :=
  [(exEnv 20, .sess 1 (.findInit [.ofUlong CKA_CLASS CKO_DATA])), (exEnv 21, .sess 1 (.find 10)),
   (exEnv 22, .sess 1 .findFinal)]

/-- Object 8 is destroyed and a session object is made; then the search again. -/
def exThen : Trace :=
  [(exEnv 9, .sess 1 (.destroyObject 8)), (exEnv 10, .sess 1 (.createObject (exSesData 3)))]

set_option maxRecDepth 10000 in
example : (exOuts (exTwo ++ exFind ++ exThen ++ exFind)).drop 6 =
    [.ok, .handle 8, .handle 9, .ok, .handles [8, 9], .ok, .ok, .handle 10, .ok, .handles [10, 9], .ok] := by
  decide +kernel

/-- Ask for the unique id. -/
def askUid : OutAttr := ⟨CKA_UNIQUE_ID, false, 100, []⟩

set_option maxRecDepth 10000 in
theorem exTwo_on : onSlot exMechs exCrypto exOracle (exRun exTwo) 1 7 :=
  ⟨exEnv 0, .rwUser, CKF_RW_SESSION ||| CKF_SERIAL_SESSION, by decide +kernel⟩

set_option maxRecDepth 10000 in
theorem exTwo_uid8 : reports exMechs exCrypto exOracle (exRun exTwo) 1 8 CKA_UNIQUE_ID [97, 104, 97] :=
  ⟨exEnv 60, askUid, ⟨CKA_UNIQUE_ID, false, 3, [97, 104, 97]⟩, rfl, rfl, by decide +kernel, by decide +kernel⟩

/-- The hypotheses of `C10_one_object` and `C10_stable` are met by object 9 across the search. -/
example : (∀ p ∈ exFind, calm 7 p.2 = true) ∧
    spared exMechs exCrypto exOracle 7 9 (exRun exTwo) exFind ∧
    onSlot exMechs exCrypto exOracle (run exMechs exCrypto exOracle (exRun exTwo) exFind) 1 7 ∧
    reports exMechs exCrypto exOracle (exRun exTwo) 1 9 CKA_UNIQUE_ID [97, 105, 97] ∧
    reports exMechs exCrypto exOracle (run exMechs exCrypto exOracle (exRun exTwo) exFind) 1 9
      CKA_UNIQUE_ID [97, 105, 97] := by
  refine ⟨by decide +kernel, ⟨fun _ _ h => (nomatch h), fun _ _ h => (nomatch h), fun _ _ h => (nomatch h), trivial⟩,
    ⟨exEnv 0, .rwUser, CKF_RW_SESSION ||| CKF_SERIAL_SESSION, ?_⟩,
    ⟨exEnv 60, askUid, ⟨CKA_UNIQUE_ID, false, 3, [97, 105, 97]⟩, rfl, rfl, ?_, by decide +kernel⟩,
    ⟨exEnv 60, askUid, ⟨CKA_UNIQUE_ID, false, 3, [97, 105, 97]⟩, rfl, rfl, ?_, by decide +kernel⟩⟩
  all_goals (set_option maxRecDepth 10000 in decide +kernel)

/-- Those of `C10_fresh`: handles 8 and 9 were given in the second part of the history. -/
example : given exMechs exCrypto exOracle 7 8 (exRun exTwo) exFind := by
  refine .inr (.inl ⟨by decide, ⟨exEnv 0, .rwUser, CKF_RW_SESSION ||| CKF_SERIAL_SESSION, ?_⟩, ?_⟩)
  all_goals (set_option maxRecDepth 10000 in decide +kernel)

set_option maxRecDepth 10000 in
/-- Those of `C10_dead`: destroying object 8 succeeds. -/
example : (step exMechs exCrypto exOracle (exEnv 9) (exRun exTwo) (.sess 1 (.destroyObject 8))).1 = .ok := by
  decide +kernel

end Kry
