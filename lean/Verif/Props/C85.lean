import Verif.Proofs.Alone
import Verif.Props.C84

/-!
# C85: operations do not interfere

Between the start of an operation and a later call of it, anything may be called on this and other sessions, except for the calls that are about this operation by
their meaning (another start, cancellation, the dual-function calls with it) and starts that ask for a login.  The answers are those of a token where only the calls of
this operation were made.
-/

namespace Kry
open Spec

variable {M : Mechs} {C : Crypto} {O : Oracle}

theorem op_smap {e : Env} {s : St} {h : Nat} (c : OCall) : (step M C O e s (.op h c)).2.smap = s.smap := by
  unfold step
  simp only
  split
  · rfl
  · rfl

theorem owns_smap {h : Nat} {k : OpKind} (tr : Trace) (s : St) : (run M C O s (tr.filter fun p => own h k p.2)).smap = s.smap := by
  induction tr generalizing s with
  | nil => rfl
  | cons p tr ih =>
    obtain ⟨e, c⟩ := p
    cases hc : own h k c with
    | false => rw [List.filter_cons_of_neg (by simp [hc])]; exact ih s
    | true =>
      rw [List.filter_cons_of_pos (by simp [hc])]
      obtain ⟨a, b, rfl⟩ := own_iff.1 hc
      exact (ih _).trans (op_smap _)

theorem owns_trace {h : Nat} {k : OpKind} (tr : Trace) (s : St) :
    (∀ p ∈ tr.filter (fun p => own h k p.2), meddles h k p.2 = false) ∧
      ∀ p ∈ hist M C O s (tr.filter fun p => own h k p.2), ∀ j f, p.1 = .openSession j f → p.2 ≠ .handle h := by
  induction tr generalizing s with
  | nil => exact ⟨fun p hp => absurd hp List.not_mem_nil, fun p hp => absurd hp List.not_mem_nil⟩
  | cons p tr ih =>
    obtain ⟨e, c⟩ := p
    cases hc : own h k c with
    | false => rw [List.filter_cons_of_neg (by simp [hc])]; exact ih s
    | true =>
      rw [List.filter_cons_of_pos (by simp [hc])]
      obtain ⟨a, b, rfl⟩ := own_iff.1 hc
      obtain ⟨i1, i2⟩ := ih (step M C O e s (.op h (.opRun k a b))).2
      refine ⟨?_, ?_⟩
      · intro p hp
        rcases List.mem_cons.1 hp with rfl | hp
        · simp [meddles]
        · exact i1 p hp
      · intro p hp
        rcases List.mem_cons.1 hp with rfl | hp
        · intro j f hj; cases hj
        · exact i2 p hp

/-- What a successful start makes: the operation that the mechanism gives for the key. -/
theorem begun {s : St} (hi : Inv s) {e : Env} {h i key m : Nat} {q sig : Bytes} {k : OpKind} (hm : Stateless M m) (hs : AMap.get s.smap h = some i)
    (hv : k = .sign ∨ k = .dec → Seen C s i key fun o => o.getBool CKA_ALWAYS_AUTHENTICATE ≠ .ok true)
    (hok : (step M C O e s (.op h (.opInit k (some (m, q)) key sig))).1 = .ok) :
    ∃ op, Plainly m op ∧ Having h k op (step M C O e s (.op h (.opInit k (some (m, q)) key sig))).2 ∧
      (k = .digest → newOp M (e.sub 1) k m q none [] = .ok op) ∧
      (k ≠ .digest → ∃ sl o, AMap.get s.slots i = some sl ∧ sl.token.getObjectByHandle C (e.sub 0) key = .ok o ∧
        newOp M (e.sub 1) k m q (some o) sig = .ok op) := by
  obtain ⟨sl, x, hg, g1, g2⟩ := getSession_live hi hs
  have hst : ∀ j sl' y, AMap.get (step M C O e s (.op h (.opInit k (some (m, q)) key sig))).2.slots j = some sl' → AMap.get sl'.sessions h = some y →
      y = (opStep M C e h (.opInit k (some (m, q)) key sig) x sl.token).2.1 := by
    intro j sl' y a1 a2
    have mv := step_sess hi a1 a2
    generalize (step M C O e s (.op h (.opInit k (some (m, q)) key sig))).1 = a at mv
    generalize hc : Call.op h (.opInit k (some (m, q)) key sig) = c at mv
    cases mv with
    | opened => cases hc
    | kept c a sl z _ _ _ hc1 => exact absurd hc.symm (hc1 _)
    | loggedIn => cases hc
    | sess => cases hc
    | op oc sl2 z hg2 hyy =>
      injection hc with _ hc; subst hc
      rw [hg] at hg2; injection hg2 with hg2; injection hg2 with _ hg2; injection hg2 with b1 b2
      rw [b1, b2]; exact hyy
  have hans : (opStep M C e h (.opInit k (some (m, q)) key sig) x sl.token).1 = .ok := by
    unfold step at hok
    simp only [hg] at hok
    exact hok
  have tame : ∀ {key' sig' op}, newOp M (e.sub 1) k m q key' sig' = .ok op → Plainly m op := by
    intro key' sig' op h
    unfold newOp at h
    simp only at h
    split at h
    · cases h
    · cases h1 : M.new (e.sub 1) k m q key' sig' with
      | error r => rw [h1] at h; cases h
      | ok o =>
        rw [h1] at h
        injection h with h; subst h
        exact ⟨rfl, hm.new _ _ _ _ _ o h1⟩
  unfold opStep at hans hst
  simp only at hans hst
  by_cases kd : k = .digest
  · subst kd
    simp only [if_pos] at hans hst
    have ok : (fnInitDigest M e m q x sl.token).1 = .ok () := by
      cases hz : (fnInitDigest M e m q x sl.token).1 with
      | ok u => rfl
      | error r => rw [hz] at hans; cases hans
    unfold fnInitDigest at ok hst
    repeat' split at ok
    all_goals first | (cases ok; done) | skip
    rename_i h1 h2 _ h3 _ op h4
    simp only [h1, if_neg h2, h3, h4] at hst
    refine ⟨op, tame h4, ?_, fun _ => h4, fun c => absurd rfl c⟩
    intro j sl' y a1 a2
    rw [hst j sl' y a1 a2]
    refine ⟨⟨nofun, nofun⟩, ?_⟩
    show AMap.get (AMap.insert x.ops .digest op) .digest = _
    rw [AMap.get_insert, if_pos rfl]
  · simp only [if_neg kd] at hans hst
    have ok : (fnInitKey M C e k m q key sig x sl.token).1 = .ok () := by
      cases hz : (fnInitKey M C e k m q key sig x sl.token).1 with
      | ok u => rfl
      | error r => rw [hz] at hans; cases hans
    obtain ⟨o', p1, ⟨op, p2, p3⟩, -⟩ := initKey_read ok
    refine ⟨op, tame p2, ?_, fun c => absurd c kd, fun _ => ⟨sl, o', g1, p1, p2⟩⟩
    intro j sl' y a1 a2
    rw [hst j sl' y a1 a2, p3]
    have nl : ¬ ((k == .sign || k == .dec) && o'.alwaysAuth) = true := by
      intro hb
      simp only [Bool.and_eq_true, Bool.or_eq_true, beq_iff_eq] at hb
      obtain ⟨hb1, hb2⟩ := hb
      obtain ⟨sl2, g5, sv⟩ := hv hb1
      rw [g1] at g5; injection g5 with g5; subst g5
      obtain ⟨o, o1, o2⟩ := sv quietEnv (fun _ => rfl)
      have := byHandle_mono (e' := quietEnv) (fun _ => rfl) p1
      rw [o1] at this; injection this with this; subst this
      apply o2
      unfold Obj.alwaysAuth Obj.boolOr at hb2
      unfold Obj.getBool
      cases hz : o.find CKA_ALWAYS_AUTHENTICATE with
      | none => rw [hz] at hb2; cases hb2
      | some a =>
        rw [hz] at hb2
        simp only at hb2 ⊢
        cases hy : a.toBool with
        | error r => rw [hy] at hb2; cases hb2
        | ok b => rw [hy] at hb2; simp only at hb2; rw [hb2]
    unfold Session.setOp
    rw [if_neg nl]
    refine ⟨⟨nofun, nofun⟩, ?_⟩
    show AMap.get (AMap.insert x.ops k op) k = _
    rw [AMap.get_insert, if_pos rfl]

variable {d : List (Nat × Db)} {tr tr2 : Trace} {e : Env} {h i j key m : Nat} {q sig : Bytes} {k : OpKind}

/-- **C85**: after a successful start of operation `k` on session `h`, whatever calls `tr2` were made that do not meddle with it, a call of the operation answers as if
only the calls of the operation among `tr2` had been made. -/
theorem C85_apart (hm : Stateless M m) (hk : manyMessages k = false) (hs : onSlot M C O (after M C O d tr) h i)
    (hq : k = .sign ∨ k = .dec → Seen C (after M C O d tr) i key fun o => o.getBool CKA_ALWAYS_AUTHENTICATE ≠ .ok true) {s : St}
    (h0 : step M C O e (after M C O d tr) (.op h (.opInit k (some (m, q)) key sig)) = (.ok, s))
    (h1 : ∀ p ∈ tr2, meddles h k p.2 = false) (h2 : ∀ p ∈ hist M C O s tr2, ∀ j f, p.1 = .openSession j f → p.2 ≠ .handle h)
    (hl : onSlot M C O (run M C O s tr2) h j) (e2 : Env) (a : Act) (b : OpIn) :
    (step M C O e2 (run M C O s tr2) (.op h (.opRun k a b))).1 =
      (step M C O e2 (run M C O s (tr2.filter fun p => own h k p.2)) (.op h (.opRun k a b))).1 := by
  have i0 := inv_reach M (C := C) O d tr
  have i1 := inv_step M (C := C) O e _ (.op h (.opInit k (some (m, q)) key sig)) i0
  have hs' := (onSlot_iff i0).1 hs
  obtain ⟨op, t0, b0, -⟩ := begun (M := M) (C := C) (O := O) i0 hm hs' hq (by rw [h0])
  have sm : AMap.get s.smap h = some i := by
    have := op_smap (M := M) (C := C) (O := O) (e := e) (s := after M C O d tr) (h := h) (.opInit k (some (m, q)) key sig)
    rw [h0] at this
    rw [this]; exact hs'
  rw [h0] at i1 b0
  have r1 := having_run (C := C) (O := O) hm hk tr2 t0 i1 b0 h1 h2
  obtain ⟨o1, o2⟩ := owns_trace (M := M) (C := C) (O := O) (h := h) (k := k) tr2 s
  have r2 := having_run (C := C) (O := O) hm hk _ t0 i1 b0 o1 o2
  rw [soloAll_filter] at r2
  have j1 := inv_run M (C := C) O tr2 s i1
  have j2 := inv_run M (C := C) O (tr2.filter fun p => own h k p.2) s i1
  rw [own_answer hm r1.2 hk j1 r1.1 ((onSlot_iff j1).1 hl) e2 a b,
    own_answer hm r2.2 hk j2 r2.1 (j := i) (by rw [owns_smap]; exact sm) e2 a b]

/-- The calls of operation `k` of session `h` in a trace, in order, with what each draws at random. -/
def Spec.callsOf (h : Nat) (k : OpKind) (tr : Trace) : List (Env × Act × OpIn) :=
  tr.filterMap fun p => match p.2 with
    | .op h' (.opRun k' a b) => if h' = h ∧ k' = k then some (p.1, a, b) else none
    | _ => none

theorem soloAll_calls (h : Nat) (k : OpKind) (tr : Trace) (v : Op) :
    soloAll M h k v tr = (callsOf h k tr).foldl (fun v p => (solo M p.1 k p.2.1 p.2.2 v).2) v := by
  induction tr generalizing v with
  | nil => rfl
  | cons p tr ih =>
    obtain ⟨e, c⟩ := p
    cases hc : own h k c with
    | false =>
      rw [soloAll_other hc, ih]
      congr 1
      unfold callsOf
      rw [List.filterMap_cons_none]
      simp only
      split
      · rw [if_neg]
        rintro ⟨rfl, rfl⟩
        simp [own] at hc
      · rfl
    | true =>
      obtain ⟨a, b, rfl⟩ := own_iff.1 hc
      rw [soloAll_own, ih]
      unfold callsOf
      rw [List.filterMap_cons_some (b := (e, a, b)) (by simp)]
      rfl

variable {d' : List (Nat × Db)} {tr' tr2' : Trace} {h' i' j' key' : Nat}

/-- **C85**, elsewhere: on another session, slot, or another token with another history, an operation started with the same mechanism, parameter and key (as an object) and given
the same calls answers the same.  Only the mechanisms are taken to be the same, and to draw the same at random. -/
theorem C85_same (hm : Stateless M m) (hk : manyMessages k = false) (o : Obj)
    (hs : onSlot M C O (after M C O d tr) h i) (ho : k ≠ .digest → Seen C (after M C O d tr) i key fun x => x = o) {s : St}
    (h0 : step M C O e (after M C O d tr) (.op h (.opInit k (some (m, q)) key sig)) = (.ok, s))
    (h1 : ∀ p ∈ tr2, meddles h k p.2 = false) (h2 : ∀ p ∈ hist M C O s tr2, ∀ j f, p.1 = .openSession j f → p.2 ≠ .handle h)
    (hl : onSlot M C O (run M C O s tr2) h j)
    (hs' : onSlot M C O (after M C O d' tr') h' i') (ho' : k ≠ .digest → Seen C (after M C O d' tr') i' key' fun x => x = o) {s' : St}
    (h0' : step M C O e (after M C O d' tr') (.op h' (.opInit k (some (m, q)) key' sig)) = (.ok, s'))
    (h1' : ∀ p ∈ tr2', meddles h' k p.2 = false) (h2' : ∀ p ∈ hist M C O s' tr2', ∀ j f, p.1 = .openSession j f → p.2 ≠ .handle h')
    (hl' : onSlot M C O (run M C O s' tr2') h' j')
    (hq : k = .sign ∨ k = .dec → o.getBool CKA_ALWAYS_AUTHENTICATE ≠ .ok true) (hc : callsOf h k tr2 = callsOf h' k tr2') (e2 : Env) (a : Act) (b : OpIn) :
    (step M C O e2 (run M C O s tr2) (.op h (.opRun k a b))).1 = (step M C O e2 (run M C O s' tr2') (.op h' (.opRun k a b))).1 := by
  have half : ∀ (d : List (Nat × Db)) (tr tr2 : Trace) (h i j key : Nat) (s : St) (_ : onSlot M C O (after M C O d tr) h i)
      (_ : k ≠ .digest → Seen C (after M C O d tr) i key fun x => x = o)
      (_ : step M C O e (after M C O d tr) (.op h (.opInit k (some (m, q)) key sig)) = (.ok, s))
      (_ : ∀ p ∈ tr2, meddles h k p.2 = false) (_ : ∀ p ∈ hist M C O s tr2, ∀ j f, p.1 = .openSession j f → p.2 ≠ .handle h)
      (_ : onSlot M C O (run M C O s tr2) h j),
      ∃ op, (k = .digest → newOp M (e.sub 1) k m q none [] = .ok op) ∧ (k ≠ .digest → newOp M (e.sub 1) k m q (some o) sig = .ok op) ∧
        (step M C O e2 (run M C O s tr2) (.op h (.opRun k a b))).1 =
          (solo M e2 k a b ((callsOf h k tr2).foldl (fun v p => (solo M p.1 k p.2.1 p.2.2 v).2) op)).1 := by
    intro d tr tr2 h i j key s hs ho h0 h1 h2 hl
    have i0 := inv_reach M (C := C) O d tr
    have i1 := inv_step M (C := C) O e _ (.op h (.opInit k (some (m, q)) key sig)) i0
    have hs' := (onSlot_iff i0).1 hs
    obtain ⟨op, t0, b0, n1, n2⟩ := begun (M := M) (C := C) (O := O) i0 hm hs' (fun (hk' : k = .sign ∨ k = .dec) => by
      obtain ⟨sl, g, sv⟩ := ho (by rcases hk' with hk' | hk' <;> rw [hk'] <;> nofun)
      refine ⟨sl, g, fun e he => ?_⟩
      obtain ⟨o', o1, rfl⟩ := sv e he
      exact ⟨o', o1, hq hk'⟩) (by rw [h0])
    rw [h0] at i1 b0
    have r1 := having_run (C := C) (O := O) hm hk tr2 t0 i1 b0 h1 h2
    have j1 := inv_run M (C := C) O tr2 s i1
    refine ⟨op, n1, ?_, ?_⟩
    · intro kd
      obtain ⟨sl, o', g1, g2, g3⟩ := n2 kd
      obtain ⟨sl2, g5, sv⟩ := ho kd
      rw [g1] at g5; injection g5 with g5; subst g5
      obtain ⟨o2, o3, rfl⟩ := sv quietEnv (fun _ => rfl)
      have := byHandle_mono (e' := quietEnv) (fun _ => rfl) g2
      rw [o3] at this; injection this with this; subst this
      exact g3
    · rw [own_answer hm r1.2 hk j1 r1.1 ((onSlot_iff j1).1 hl) e2 a b, soloAll_calls]
  obtain ⟨op, a1, a2, a3⟩ := half d tr tr2 h i j key s hs ho h0 h1 h2 hl
  obtain ⟨op', b1, b2, b3⟩ := half d' tr' tr2' h' i' j' key' s' hs' ho' h0' h1' h2' hl'
  have eq : op = op' := by
    by_cases kd : k = .digest
    · have := (a1 kd).symm.trans (b1 kd); injection this
    · have := (a2 kd).symm.trans (b2 kd); injection this
  rw [a3, b3, hc, eq]

/-! ## The hypotheses are met -/

/-- HMAC and digests change no stored object. -/
theorem withMac_stateless {H : Nat → Bytes → Bytes} (hr : (macRow m).isSome ∨ (digestRow m).isSome) : Stateless (withMac M H) m where
  new := by
    intro e k q key sig op h
    change (match macRow m with
      | some r => _
      | none => match digestRow m with
        | some r => _
        | none => _) = _ at h
    cases hm : macRow m with
    | some r =>
      rw [hm] at h
      cases key with
      | none => cases h
      | some o =>
        simp only [macNew] at h
        repeat' split at h
        all_goals first | (cases h; done) | skip
        all_goals (injection h with h; subst h; rfl)
    | none =>
      rw [hm] at h
      cases hd : digestRow m with
      | some r => rw [hd] at h; injection h with h; subst h; rfl
      | none => rw [hm, hd] at hr; rcases hr with hr | hr <;> cases hr
  run := by
    intro e k a op i hm' hu
    show (match macRow op.mech with
      | some r => _
      | none => match digestRow op.mech with
        | some r => _
        | none => _ : Res Bytes × Op).2.upd = none
    rw [hm']
    cases hm : macRow m with
    | some r => rfl
    | none =>
      cases hd : digestRow m with
      | some r => rfl
      | none => rw [hm, hd] at hr; rcases hr with hr | hr <;> cases hr
  len := by
    intro k a op n hm' hu
    show (match macRow op.mech with
      | some r => _
      | none => match digestRow op.mech with
        | some r => _
        | none => _ : Res Nat × Op).2.upd = none
    rw [hm']
    cases hm : macRow m with
    | some r => exact hu
    | none =>
      cases hd : digestRow m with
      | some r => exact hu
      | none => rw [hm, hd] at hr; rcases hr with hr | hr <;> cases hr

theorem pair_of {p : Out × St} (h : p.1 = .ok) : p = (.ok, p.2) := by rw [← h]

theorem exMac_started : step exMac exCrypto exOracle (exEnv 9) exMacSt (.op 1 (.opInit .sign (some (CKM_SHA256_HMAC_GENERAL, exMacParam)) 9 [])) = (.ok, exMacMid) :=
  pair_of exMac_ran.started

theorem hist_calls (tr : Trace) (s : St) : (hist M C O s tr).map (·.1) = tr.map (·.2) := by
  induction tr generalizing s with
  | nil => rfl
  | cons q tr ih => simp only [hist, List.map_cons, ih]

/-- A trace without C_OpenSession opens nothing. -/
theorem noOpen_of {tr : Trace} {s : St} {h : Nat} (ht : tr.all (fun p => match p.2 with
    | .openSession _ _ => false
    | _ => true) = true) : ∀ p ∈ hist M C O s tr, ∀ j f, p.1 = .openSession j f → p.2 ≠ .handle h := by
  intro p hp j f h1
  have : p.1 ∈ tr.map (·.2) := by rw [← hist_calls (M := M) (C := C) (O := O) tr s]; exact List.mem_map_of_mem hp
  obtain ⟨q, hq, h2⟩ := List.mem_map.1 this
  have := List.all_eq_true.1 ht q hq
  rw [h2, h1] at this
  cases this

theorem exMac_quiet : ∀ p ∈ exMacTrace, meddles 1 .sign p.2 = false := by
  have : exMacTrace.all (fun p => meddles 1 .sign p.2 == false) = true := by decide +kernel
  intro p hp
  exact eq_of_beq (List.all_eq_true.1 this p hp)

/-- The theorem applies: seven of the eleven calls drop out. -/
example (b : OpIn) : (step exMac exCrypto exOracle (exEnv 21) exMacEnd (.op 1 (.opRun .sign .final b))).1 =
      (step exMac exCrypto exOracle (exEnv 21) (run exMac exCrypto exOracle exMacMid (exMacTrace.filter fun p => own 1 .sign p.2)) (.op 1 (.opRun .sign .final b))).1 ∧
    (exMacTrace.filter fun p => own 1 .sign p.2).length = 4 :=
  ⟨C85_apart (M := exMac) (C := exCrypto) (O := exOracle) (withMac_stateless (.inl (by decide +kernel))) rfl exMac_on
    (fun _ => Classical.byContradiction fun c => exMac_calm (.inl ⟨rfl, c⟩)) exMac_started exMac_quiet (noOpen_of (by decide +kernel)) exMac_end (exEnv 21) .final b,
   by decide +kernel⟩

/-- The same signature on the other session. -/
def exMacTrace2 : Trace := (callsOf 1 .sign exMacTrace).map fun p => (p.1, .op 2 (.opRun .sign p.2.1 p.2.2))
abbrev exMacMid2 : St := (step exMac exCrypto exOracle (exEnv 9) exMacSt (.op 2 (.opInit .sign (some (CKM_SHA256_HMAC_GENERAL, exMacParam)) 9 []))).2

set_option maxRecDepth 20000 in
theorem exMac_started2 : step exMac exCrypto exOracle (exEnv 9) exMacSt (.op 2 (.opInit .sign (some (CKM_SHA256_HMAC_GENERAL, exMacParam)) 9 [])) = (.ok, exMacMid2) :=
  pair_of (by decide +kernel)

set_option maxRecDepth 20000 in
theorem exMac_obj : Seen exCrypto exMacSt 7 9 (fun o => o = exMacObj) := seen_read (o := exMacObj) (by decide +kernel) rfl

set_option maxRecDepth 20000 in
theorem exMac_on2 : onSlot exMac exCrypto exOracle exMacSt 2 7 := ⟨exEnv 0, .rwUser, CKF_RW_SESSION ||| CKF_SERIAL_SESSION, by decide +kernel⟩

set_option maxRecDepth 20000 in
theorem exMac_end2 : onSlot exMac exCrypto exOracle (run exMac exCrypto exOracle exMacMid2 exMacTrace2) 2 7 :=
  ⟨exEnv 0, .rwUser, CKF_RW_SESSION ||| CKF_SERIAL_SESSION, by decide +kernel⟩

theorem exMac_quiet2 : ∀ p ∈ exMacTrace2, meddles 2 .sign p.2 = false := by
  have : exMacTrace2.all (fun p => meddles 2 .sign p.2 == false) = true := by decide +kernel
  intro p hp
  exact eq_of_beq (List.all_eq_true.1 this p hp)

set_option maxRecDepth 20000 in
/-- `C85_same` applies to it. -/
example (b : OpIn) : (step exMac exCrypto exOracle (exEnv 21) exMacEnd (.op 1 (.opRun .sign .final b))).1 =
    (step exMac exCrypto exOracle (exEnv 21) (run exMac exCrypto exOracle exMacMid2 exMacTrace2) (.op 2 (.opRun .sign .final b))).1 :=
  C85_same (M := exMac) (C := exCrypto) (O := exOracle) (withMac_stateless (.inl (by decide +kernel))) rfl exMacObj
    exMac_on (fun _ => exMac_obj) exMac_started exMac_quiet (noOpen_of (by decide +kernel)) exMac_end
    exMac_on2 (fun _ => exMac_obj) exMac_started2 exMac_quiet2 (noOpen_of (by decide +kernel)) exMac_end2
    (fun _ => by decide +kernel) rfl (exEnv 21) .final b

end Kry
