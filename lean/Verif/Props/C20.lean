import Verif.Props.C11
import Verif.Props.ExMechs

/-!
# C20: a destroyed object is gone

In the process: its handle is ended (`Ended`, see C11).  On disk: no call reports its unique id any more,
also after C_Finalize, a crash, or C_InitToken.

`Token::destroy_object` ignores the result of the removal from storage (`src/token.rs:764`), so the second
part holds only if that one database operation succeeds; `C20_fault_violation` shows what happens
otherwise.
-/

namespace Kry

open Spec

variable (M : Mechs) (C : Crypto) (O : Oracle)

/-- After C_DestroyObject returned CKR_OK every call that names the handle fails, changing nothing, and no
search begun afterwards finds it. -/
theorem C20_handle (d : List (Nat × Db)) (tr : Trace) (e : Env) (i n h : Nat)
    (ho : onSlot M C O (after M C O d tr) h i)
    (hk : (step M C O e (after M C O d tr) (.sess h (.destroyObject n))).1 = .ok) :
    Ended M C O i n (step M C O e (after M C O d tr) (.sess h (.destroyObject n))).2 :=
  C11_destroyed M C O d tr e i n h ho hk

theorem destroy_gone {e : Env} {s : St} {i h n : Nat} {u : Bytes} (hi : Inv s) (hv : HInv s) (ht : TInv s)
    (hm : AMap.get s.smap h = some i) (hso : sessionObj s i n = none)
    (hu : ∀ sl, AMap.get s.slots i = some sl → sl.token.handles.get n = some u)
    (hf : ((e.sub 1).sub 1).fails = none)
    (ho : (step M C O e s (.sess h (.destroyObject n))).1 = .ok) :
    Gone (step M C O e s (.sess h (.destroyObject n))).2 i u := by
  obtain ⟨sl, x, hg, hs, hx⟩ := getSession_live hi hm
  have ok := (hv i sl hs).ok
  have hun := hu sl hs
  have hnone : AMap.get sl.token.sess n = none := by
    unfold sessionObj at hso; rw [hs] at hso; exact hso
  simp only [step, hg, sessStep] at ho ⊢
  have hr := out_ok ho
  have key : (fnDestroy C e x sl.token n).2 =
      { sl.token with store := (sl.token.store.remove ((e.sub 1).sub 1) sl.token.handles n).2,
                      handles := sl.token.handles.remove n } := by
    revert hr
    unfold fnDestroy
    split
    · intro h; cases h
    · split
      · intro h; cases h
      · split
        · intro h; cases h
        · unfold Token.destroyObject
          rw [hnone]
          simp only
          split
          · intro h; cases h
          · split
            · intro h; cases h
            · intro _; rfl
  rw [key]
  unfold Gone
  rw [get_setSlot hs, if_pos rfl]
  simp only
  constructor
  · have : (sl.token.store.remove ((e.sub 1).sub 1) sl.token.handles n).2.db.objs
        = deleteObject sl.token.store.db.objs u := by
      simp only [Store.remove, hun, Db.removeByUid, hf]
    rw [this, rowsOf_delete (ht.slots i sl hs), if_pos rfl]
  · intro m hmu
    rw [get_remove] at hmu
    split at hmu
    · cases hmu
    · rename_i hne
      exact hne (ok.hs.inj hun hmu)

/-- After C_DestroyObject of a token object returned CKR_OK — the storage operation inside it having
succeeded — no handle of the slot reports its unique id, after any further history: other calls, leaving
and entering the library, crashes, storage faults, C_InitToken, objects made with other identifiers: drawn
identifiers differ from `u` and no template asks for `u` (templates of generated keys can, see C16).  Missing:
removals in which storage fails (a violation, below). -/
theorem C20_gone_partial (d : List (Nat × Db)) (hd : ∀ p ∈ d, TblOk p.2.objs) (tr₁ tr₂ : Trace) (e : Env)
    (i n h : Nat) (u : Bytes) (ho : onSlot M C O (after M C O d tr₁) h i)
    (htok : sessionObj (after M C O d tr₁) i n = none)
    (hr : reports M C O (after M C O d tr₁) h n CKA_UNIQUE_ID u)
    (hst : ∀ cls id, u ≠ Token.stableUid cls id)
    (hf : ((e.sub 1).sub 1).fails = none)
    (hk : (step M C O e (after M C O d tr₁) (.sess h (.destroyObject n))).1 = .ok)
    (hM : HonoursId M) (hdraw : ∀ p ∈ tr₂, ∀ q, p.1.uuid q ≠ u) (hask : ∀ p ∈ tr₂, ¬ asksId p.2 u) (h' m : Nat)
    (ho' : onSlot M C O (run M C O (step M C O e (after M C O d tr₁) (.sess h (.destroyObject n))).2 tr₂) h' i) :
    ¬ reports M C O (run M C O (step M C O e (after M C O d tr₁) (.sess h (.destroyObject n))).2 tr₂)
      h' m CKA_UNIQUE_ID u := by
  have hi := inv_reach (C := C) M O d tr₁
  have hv := hinv_reach (C := C) M O d tr₁
  have ht := tinv_reach (C := C) M O hd tr₁
  have hi1 := inv_step (C := C) M O e _ (.sess h (.destroyObject n)) hi
  have hv1 := hinv_step (C := C) M O e _ (.sess h (.destroyObject n)) hi hv
  have ht1 := tinv_step (C := C) M O e _ (.sess h (.destroyObject n)) hi ht
  have hi2 := inv_run (C := C) M O tr₂ _ hi1
  have hv2 := hinv_run (C := C) M O tr₂ _ hi1 hv1
  have ht2 := tinv_run (C := C) M O tr₂ _ hi1 ht1
  have hm := (onSlot_iff hi).1 ho
  have g := destroy_gone M C O (e := e) hi hv ht hm htok (by
    intro sl hs
    obtain ⟨j, sl2, m1, s1, g1⟩ := reports_uid hi hv ht hr
    rw [hm] at m1; injection m1 with m1; subst m1
    rw [hs] at s1; injection s1 with s1; subst s1
    exact g1) hf hk
  have g2 := gone_run (C := C) M O tr₂ _ i u hi1 ht1 hst (fun p hp _ _ m => ids_made hM m (hdraw p hp) (hask p hp)) g
  intro hr'
  obtain ⟨j, sl, m1, s1, g1⟩ := reports_uid hi2 hv2 ht2 hr'
  rw [(onSlot_iff hi2).1 ho'] at m1; injection m1 with m1; subst m1
  unfold Gone at g2
  rw [s1] at g2
  exact g2.2 m g1

set_option maxRecDepth 10000 in
/-- If the removal from storage fails, C_DestroyObject nevertheless answers CKR_OK and the next search
finds the object again, under a new handle. -/
theorem C20_fault_violation :
    (exOuts (exTwo ++ [(exFail 9 [1, 1], .sess 1 (.destroyObject 8))] ++ exFind)).drop 6 =
      [.ok, .handle 8, .handle 9, .ok, .ok, .handles [10, 9], .ok] := by decide +kernel

/-! ## A concrete case -/

/-- The identifiers of built-in objects start with the hexadecimal digits of "kryoptic". -/
theorem stableUid_head (cls id : Nat) : (Token.stableUid cls id).head? = some 54 := by
  unfold Token.stableUid
  generalize toBE 4 (cls % 2 ^ 32) = a
  generalize toBE 4 (id % 2 ^ 32) = b
  have h : ascii "kryoptic" = [107, 114, 121, 111, 112, 116, 105, 99] := by decide +kernel
  simp only [h]
  simp [Token.uuidText, hexEncode, hexDigit]

set_option maxRecDepth 10000 in
/-- The hypotheses of `C20_gone_partial` (and of `C20_handle`): object 8 of the history `exTwo`. -/
example : sessionObj (exRun exTwo) 7 8 = none ∧ (((exEnv 9).sub 1).sub 1).fails = none ∧
    (∀ cls id, ([97, 104, 97] : Bytes) ≠ Token.stableUid cls id) ∧
    (step exMechs exCrypto exOracle (exEnv 9) (exRun exTwo) (.sess 1 (.destroyObject 8))).1 = .ok := by
  refine ⟨by decide +kernel, rfl, ?_, by decide +kernel⟩
  intro cls id h
  have h1 := stableUid_head cls id
  rw [← h] at h1
  exact absurd h1 (by decide)

/-- A later history in which objects are made: the rest of the hypotheses of `C20_gone_partial`. -/
example : HonoursId exMechs ∧ ∀ p ∈ [(exEnv 11, Call.sess 1 (.createObject (exTokData 3))), (exEnv 12, .finalize)],
    (∀ q, p.1.uuid q ≠ [97, 104, 97]) ∧ ¬ asksId p.2 [97, 104, 97] := by
  refine ⟨exMechs_ids, ?_⟩
  intro p hp
  simp only [List.mem_cons, List.not_mem_nil, or_false] at hp
  rcases hp with rfl | rfl
  · refine ⟨fun q h => ?_, ?_⟩
    · simp [exEnv] at h
    · rintro ⟨tm, ht, a, ha, he, hv⟩
      simp only [templates, List.mem_singleton] at ht
      subst ht
      exact (show ∀ a ∈ exTokData 3, a.typ ≠ CKA_UNIQUE_ID by decide) a ha he
  · refine ⟨fun q h => ?_, ?_⟩
    · simp [exEnv] at h
    · rintro ⟨tm, ht, _⟩
      simp [templates] at ht

set_option maxRecDepth 10000 in
/-- After a restart only the other object is found. -/
example : (exOuts (exTwo ++ [(exEnv 9, .sess 1 (.destroyObject 8)), (exEnv 10, .finalize),
    (exEnv 11, .initialize exConf), (exEnv 12, .openSession 7 CKF_SERIAL_SESSION)] ++ exFind)).drop 9 =
    [.ok, .ok, .ok, .handle 1, .ok, .handles [8], .ok] := by decide +kernel

/-! C11: session 2 makes an object that session 1 can use until session 2 is closed; session 1's own
object and the token objects stay. -/

def exSes : Trace := exTwo ++
  [(exEnv 11, .openSession 7 CKF_SERIAL_SESSION), (exEnv 12, .sess 2 (.createObject (exSesData 5))),
   (exEnv 13, .sess 1 (.createObject (exSesData 6)))]

set_option maxRecDepth 10000 in
example : (exOuts (exSes ++ [(exEnv 14, .sess 1 (.getObjectSize 10)), (exEnv 15, .closeSession 2),
    (exEnv 16, .sess 1 (.getObjectSize 10))] ++ exFind)).drop 9 =
    [.handle 2, .handle 10, .handle 11, .size 505, .ok, .err .objectHandleInvalid, .ok, .handles [11, 8, 9], .ok] := by
  decide +kernel

end Kry
