import Verif.Proofs.Knows
import Verif.Spec.Feeds

/-!
# An operation follows the calls of its session

A relation between the parts given and the operation object that updates keep is kept by every call on any session.
-/

namespace Kry
open Spec

variable {M : Mechs} {C : Crypto} {O : Oracle}

/-- Only operation `k` changed. -/
def Only (k : OpKind) (x y : Session) : Prop := y.login = x.login ∧ ∀ j, j ≠ k → AMap.get y.ops j = AMap.get x.ops j

theorem Only.refl (k : OpKind) (x : Session) : Only k x x := ⟨rfl, fun _ _ => rfl⟩

theorem only_put (k : OpKind) (x : Session) (o : Op) : Only k x (x.putOp k o) :=
  ⟨rfl, fun j hj => by show AMap.get (AMap.insert x.ops k o) j = _; rw [AMap.get_insert, if_neg (Ne.symm hj)]⟩

theorem feed_only (e : Env) (k : OpKind) (d : Bytes) (x : Session) : Only k x (fnFeed M e k d x).2 := by
  unfold fnFeed
  split
  · exact .refl _ _
  · simp only
    split <;> exact only_put _ _ _

theorem crypt_only (e : Env) (k : OpKind) (a : Act) (i : OpIn) (x : Session) : Only k x (fnCrypt M e k a i x).2 := by
  unfold fnCrypt
  repeat' split
  all_goals first | exact .refl _ _ | exact only_put _ _ _

theorem digest_only (e : Env) (a : Act) (i : OpIn) (x : Session) : Only .digest x (fnDigest M e a i x).2 := by
  unfold fnDigest
  repeat' split
  all_goals first | exact .refl _ _ | exact only_put _ _ _

theorem message_only (e : Env) (k : OpKind) (a : Act) (i : OpIn) (x : Session) (t : Token) : Only k x (fnMessage M e k a i x t).2 := by
  unfold fnMessage
  repeat' split
  all_goals first | exact .refl _ _ | exact only_put _ _ _

theorem sign_only (e : Env) (a : Act) (i : OpIn) (x : Session) (t : Token) : Only .sign x (fnSign M C e a i x t).2.1 := by
  unfold fnSign
  repeat' split
  all_goals first | exact .refl _ _ | (simp only; repeat' split) <;> exact only_put _ _ _

theorem verify_only (e : Env) (k : OpKind) (a : Act) (i : OpIn) (x : Session) (t : Token) : Only k x (fnVerify M C e k a i x t).2.1 := by
  unfold fnVerify
  split
  · exact .refl _ _
  · simp only
    split
    · exact .refl _ _
    · split <;> exact only_put _ _ _

theorem run_only (e : Env) (k : OpKind) (a : Act) (i : OpIn) (x : Session) (t : Token) : Only k x (fnOpRun M C e k a i x t).2.1 := by
  unfold fnOpRun
  simp only
  repeat' split
  all_goals first
    | exact .refl _ _
    | exact message_only _ _ _ _ _ _
    | exact crypt_only _ _ _ _ _
    | exact digest_only _ _ _ _
    | exact feed_only _ _ _ _
    | exact sign_only _ _ _ _ _
    | exact verify_only _ _ _ _ _ _

theorem digestKey_only (e : Env) (key : Nat) (x : Session) (t : Token) : Only .digest x (fnDigestKey M C e key x t).2 := by
  unfold fnDigestKey
  repeat' split
  all_goals first | exact .refl _ _ | exact feed_only _ _ _ _

theorem init_only (e : Env) (k : OpKind) (m : Nat) (p : Bytes) (key : Nat) (sig : Bytes) (x : Session) (t : Token) :
    (∃ r, (if k = .digest then fnInitDigest M e m p x t else fnInitKey M C e k m p key sig x t) = (.error r, x)) ∨
      ∃ o b, (if k = .digest then fnInitDigest M e m p x t else fnInitKey M C e k m p key sig x t) = (.ok (), x.setOp k o b) := by
  split
  · rename_i hk; subst hk
    unfold fnInitDigest
    repeat' split
    all_goals first | exact .inl ⟨_, rfl⟩ | exact .inr ⟨_, _, rfl⟩
  · unfold fnInitKey
    repeat' split
    all_goals first | exact .inl ⟨_, rfl⟩ | exact .inr ⟨_, _, rfl⟩

/-- The relation between the parts given and the operation. -/
structure Follows (M : Mechs) (k : OpKind) (P : List Bytes → Op → Prop) : Prop where
  live : ∀ w op, P w op → op.fin = false
  feed : ∀ e w op d b, P w op → (runOp M e k .update op { (default : OpIn) with data := d }).1 = .ok b →
    P (w ++ [d]) (runOp M e k .update op { (default : OpIn) with data := d }).2
  room : ∀ e w op a i, P w op → (runOp M e k a op i).1 ≠ .error .bufferTooSmall

/-- The session has the operation, in the state that goes with the parts. -/
def Bears (k : OpKind) (P : List Bytes → Op → Prop) (w : List Bytes) (x : Session) : Prop :=
  x.login ≠ .notInit ∧ ∃ op, AMap.get x.ops k = some op ∧ P w op

/-- The kinds that are told about their input. -/
def fedKind (k : OpKind) : Prop := k = .sign ∨ k = .verify ∨ k = .verifySig ∨ k = .digest

variable {k : OpKind} {P : List Bytes → Op → Prop}

theorem Bears.only {j : OpKind} {w : List Bytes} {x y : Session} (h : Bears k P w x) (o : Only j x y) (hj : k ≠ j) : Bears k P w y := by
  obtain ⟨h1, op, h2, h3⟩ := h
  exact ⟨by rw [o.1]; exact h1, op, by rw [o.2 k hj]; exact h2, h3⟩

theorem Bears.put {w w' : List Bytes} {x : Session} {op : Op} (h : Bears k P w x) (p : P w' op) : Bears k P w' (x.putOp k op) :=
  ⟨h.1, op, by show AMap.get (AMap.insert x.ops k op) k = _; rw [AMap.get_insert, if_pos rfl], p⟩

theorem Bears.getOp {w : List Bytes} {x : Session} (hf : Follows M k P) (h : Bears k P w x) {op : Op} (g : x.getOp k = .ok op) : P w op := by
  obtain ⟨h1, o, h2, h3⟩ := h
  unfold Session.getOp at g
  rw [h2] at g
  simp only at g
  split at g
  · cases g
  · rw [if_neg (by rw [hf.live w o h3]; simp)] at g
    injection g with g; subst g; exact h3

theorem bears_feed (hf : Follows M k P) {w : List Bytes} {x : Session} (h : Bears k P w x) (e : Env) (d : Bytes)
    (ho : (fnFeed M e k d x).1 = .ok ()) : Bears k P (w ++ [d]) (fnFeed M e k d x).2 := by
  unfold fnFeed at ho ⊢
  cases g : x.getOp k with
  | error r => rw [g] at ho; cases ho
  | ok op =>
    have p := h.getOp hf g
    have f := hf.feed e w op d
    rw [g] at ho
    simp only at ho ⊢
    generalize runOp M e k .update op { (default : OpIn) with data := d } = q at ho f ⊢
    obtain ⟨r, op'⟩ := q
    cases r with
    | error r => cases ho
    | ok b => exact h.put (f b p rfl)

/-- A feed that does not succeed does not answer CKR_BUFFER_TOO_SMALL. -/
theorem feed_room (hf : Follows M k P) {w : List Bytes} {x : Session} (h : Bears k P w x) (e : Env) (d : Bytes) :
    (fnFeed M e k d x).1 ≠ .error .bufferTooSmall := by
  unfold fnFeed
  cases g : x.getOp k with
  | error r =>
    simp only
    unfold Session.getOp Session.checkLogin at g
    intro hr; injection hr with hr; subst hr
    repeat' split at g
    all_goals first | (cases g; done) | skip
    all_goals (rename_i hr _; revert hr; split <;> nofun)
  | ok op =>
    have p := h.getOp hf g
    have f := hf.room e w op .update { (default : OpIn) with data := d } p
    simp only
    generalize runOp M e k .update op { (default : OpIn) with data := d } = q at f ⊢
    obtain ⟨r, op'⟩ := q
    cases r with
    | error r => intro hr; exact f (by injection hr with hr; subst hr; rfl)
    | ok b => nofun

/-- `afterUse` never answers CKR_BUFFER_TOO_SMALL. -/
theorem afterUse_room (e : Env) (op : Op) (t : Token) : (afterUse C e op t).1 ≠ .error .bufferTooSmall := by
  unfold afterUse
  split
  · nofun
  · split
    · nofun
    · simp only
      split <;> nofun

theorem bears_sign (hf : Follows M .sign P) {w : List Bytes} {x : Session} (h : Bears .sign P w x) (e : Env) (a : Act) (i : OpIn) (t : Token)
    {n : Nat} (ho : (fnSign M C e a i x t).1 = .size n ∨ (fnSign M C e a i x t).1 = .err .bufferTooSmall) :
    Bears .sign P w (fnSign M C e a i x t).2.1 := by
  unfold fnSign at ho ⊢
  cases g : x.getOp .sign with
  | error r => exact h
  | ok op =>
    have p := h.getOp hf g
    rw [g] at ho
    simp only at ho ⊢
    split
    · exact h
    rename_i m hm
    rw [hm] at ho
    simp only at ho
    cases hi : i.out with
    | none => exact h
    | some b =>
      rw [hi] at ho
      simp only at ho ⊢
      by_cases hb : b < m
      · rw [if_pos hb]; exact h
      rw [if_neg hb] at ho ⊢
      exfalso
      have f := hf.room (e.sub 0) w op a i p
      generalize runOp M (e.sub 0) .sign a op i = q at ho f
      obtain ⟨r, op'⟩ := q
      cases r with
      | error r =>
        rcases ho with ho | ho
        · cases ho
        · injection ho with ho; subst ho; exact f rfl
      | ok b' =>
        have u := afterUse_room (C := C) (e.sub 1) op' t
        simp only at ho
        generalize afterUse C (e.sub 1) op' t = q at ho u
        obtain ⟨r, t'⟩ := q
        cases r with
        | error r =>
          rcases ho with ho | ho
          · cases ho
          · injection ho with ho; subst ho; exact u rfl
        | ok u => rcases ho with ho | ho <;> cases ho

theorem bears_digest (hf : Follows M .digest P) {w : List Bytes} {x : Session} (h : Bears .digest P w x) (e : Env) (a : Act) (i : OpIn)
    {n : Nat} (ho : (fnDigest M e a i x).1 = .size n ∨ (fnDigest M e a i x).1 = .err .bufferTooSmall) :
    Bears .digest P w (fnDigest M e a i x).2 := by
  unfold fnDigest at ho ⊢
  cases g : x.getOp .digest with
  | error r => exact h
  | ok op =>
    have p := h.getOp hf g
    rw [g] at ho
    simp only at ho ⊢
    split
    · exact h
    rename_i m hm
    rw [hm] at ho
    simp only at ho
    cases hi : i.out with
    | none => exact h
    | some b =>
      rw [hi] at ho
      simp only at ho ⊢
      by_cases hb : b < m
      · rw [if_pos hb]; exact h
      rw [if_neg hb] at ho ⊢
      exfalso
      have f := hf.room e w op a i p
      generalize runOp M e .digest a op i = q at ho f
      obtain ⟨r, op'⟩ := q
      cases r with
      | error r =>
        rcases ho with ho | ho
        · cases ho
        · injection ho with ho; subst ho; exact f rfl
      | ok b' => rcases ho with ho | ho <;> cases ho

theorem bears_verify (hf : Follows M k P) {w : List Bytes} {x : Session} (h : Bears k P w x) (e : Env) (a : Act) (i : OpIn) (t : Token)
    {n : Nat} (ho : (fnVerify M C e k a i x t).1 = .size n ∨ (fnVerify M C e k a i x t).1 = .err .bufferTooSmall) :
    Bears k P w (fnVerify M C e k a i x t).2.1 := by
  unfold fnVerify at ho ⊢
  cases g : x.getOp k with
  | error r => exact h
  | ok op =>
    have p := h.getOp hf g
    rw [g] at ho
    simp only at ho ⊢
    split
    · exact h
    rename_i m hm
    rw [hm] at ho
    simp only at ho
    exfalso
    have f := hf.room (e.sub 0) w op a i p
    generalize runOp M (e.sub 0) k a op i = q at ho f
    obtain ⟨r, op'⟩ := q
    cases r with
    | error r =>
      rcases ho with ho | ho
      · cases ho
      · injection ho with ho; subst ho; exact f rfl
    | ok b' =>
      have u := afterUse_room (C := C) (e.sub 1) op' t
      simp only at ho
      generalize afterUse C (e.sub 1) op' t = q at ho u
      obtain ⟨r, t'⟩ := q
      cases r with
      | error r =>
        rcases ho with ho | ho
        · cases ho
        · injection ho with ho; subst ho; exact u rfl
      | ok u => rcases ho with ho | ho <;> cases ho

/-- A call of the operation itself. -/
theorem bears_run (hk : fedKind k) (hf : Follows M k P) {w w' : List Bytes} {x : Session} (h : Bears k P w x) (e : Env) (a : Act) (i : OpIn)
    (t : Token) (ho : feedRun a i (fnOpRun M C e k a i x t).1 (some w) = some w') : Bears k P w' (fnOpRun M C e k a i x t).2.1 := by
  have feed : ∀ p : Res Unit × Session, p = fnFeed M e k i.data x → feedRun .update i (Out.of p.1) (some w) = some w' → Bears k P w' p.2 := by
    intro p hp ho
    have r := feed_room hf h e i.data
    have b := bears_feed hf h e i.data
    rw [← hp] at r b
    obtain ⟨q, y⟩ := p
    cases q with
    | ok u =>
      have : w' = w ++ [i.data] := by simpa [feedRun, Out.of] using ho.symm
      rw [this]; exact b rfl
    | error z =>
      exfalso
      cases z with
      | bufferTooSmall => exact r rfl
      | _ => cases ho
  have query : ∀ (r : Out) (y : Session), (a = .oneShot ∨ a = .final) → feedRun a i r (some w) = some w' →
      (∀ n, r = .size n ∨ r = .err .bufferTooSmall → Bears k P w y) → Bears k P w' y := by
    intro r y ha ho hy
    cases r with
    | size n => simp only [feedRun] at ho; injection ho with ho; subst ho; exact hy n (.inl rfl)
    | err z =>
      cases z with
      | bufferTooSmall => simp only [feedRun] at ho; injection ho with ho; subst ho; exact hy 0 (.inr rfl)
      | _ => cases ho
    | ok =>
      simp only [feedRun] at ho
      rw [if_neg (by rcases ha with ha | ha <;> rw [ha] <;> nofun)] at ho
      cases ho
    | _ => cases ho
  have none' : ∀ y, feedRun a i (.err .functionNotSupported) (some w) = some w' → Bears k P w' y := by intro y ho; cases ho
  unfold fnOpRun at ho ⊢
  rcases hk with hk | hk | hk | hk <;> subst hk <;> cases a <;> simp only at ho ⊢ <;> first
    | exact none' _ ho
    | exact feed _ rfl ho
    | exact query _ _ (.inl rfl) ho (fun n hn => bears_sign hf h e _ i t hn)
    | exact query _ _ (.inr rfl) ho (fun n hn => bears_sign hf h e _ i t hn)
    | exact query _ _ (.inl rfl) ho (fun n hn => bears_verify hf h e _ i t hn)
    | exact query _ _ (.inr rfl) ho (fun n hn => bears_verify hf h e _ i t hn)
    | exact query _ _ (.inl rfl) ho (fun n hn => bears_digest hf h e _ i hn)
    | exact query _ _ (.inr rfl) ho (fun n hn => bears_digest hf h e _ i hn)

/-- A dual call whose plaintext goes to the operation. -/
theorem bears_dual (hf : Follows M k P) {k1 : OpKind} (h1 : k ≠ k1) {w : List Bytes} {x : Session} (h : Bears k P w x) (e : Env)
    (i : OpIn) :
    (∀ n, (fnDual M e k1 k i x).1 = .size n → Bears k P w (fnDual M e k1 k i x).2) ∧
      ∀ b, (fnDual M e k1 k i x).1 = .bytes b → Bears k P (w ++ [if k1 = .enc then i.data else b]) (fnDual M e k1 k i x).2 := by
  unfold fnDual
  split
  · exact ⟨nofun, nofun⟩
  · have o := h.only (crypt_only (M := M) (e.sub 0) k1 .update i x) h1
    generalize fnCrypt M (e.sub 0) k1 .update i x = q at o
    obtain ⟨r, y⟩ := q
    simp only at o ⊢
    cases r with
    | bytes b =>
      simp only
      have f := bears_feed hf o (e.sub 1) (if k1 = .enc then i.data else b)
      generalize fnFeed M (e.sub 1) k (if k1 = .enc then i.data else b) y = q at f
      obtain ⟨r, z⟩ := q
      cases r with
      | error r => exact ⟨nofun, nofun⟩
      | ok u => exact ⟨nofun, fun b' hb => by injection hb with hb; subst hb; exact f rfl⟩
    | size n => exact ⟨fun _ _ => o, nofun⟩
    | _ => exact ⟨nofun, nofun⟩

theorem dual_other {k1 k2 : OpKind} (h1 : k ≠ k1) (h2 : k ≠ k2) {w : List Bytes} {x : Session} (h : Bears k P w x) (e : Env) (i : OpIn) :
    Bears k P w (fnDual M e k1 k2 i x).2 := by
  unfold fnDual
  split
  · exact h
  · have o := h.only (crypt_only (M := M) (e.sub 0) k1 .update i x) h1
    generalize fnCrypt M (e.sub 0) k1 .update i x = q at o
    obtain ⟨r, y⟩ := q
    simp only at o ⊢
    cases r with
    | bytes b =>
      simp only
      have f := o.only (feed_only (M := M) (e.sub 1) k2 (if k1 = .enc then i.data else b) y) h2
      split <;> (rename_i hh; first | exact f | (rw [hh] at f; exact f))
    | _ => exact o

theorem cancelIf_bears {w : List Bytes} {x : Session} (h : Bears k P w x) {f g : Nat} {j : OpKind} (hc : k = j → f &&& g = 0) :
    Bears k P w (x.cancelIf f g j) := by
  unfold Session.cancelIf
  split
  · rename_i hne
    have hj : k ≠ j := fun e => hne (hc e)
    obtain ⟨h1, op, h2, h3⟩ := h
    refine ⟨h1, op, ?_, h3⟩
    show AMap.get (AMap.erase x.ops j) k = _
    rw [AMap.get_erase, if_neg (Ne.symm hj)]
    exact h2
  · exact h

theorem cancel_bears {w : List Bytes} {x : Session} (h : Bears k P w x) {f : Nat} (hc : f &&& opFlag k = 0) : Bears k P w (fnCancel f x).2 := by
  have e : (fnCancel f x).2 = x.cancelAll f := by unfold fnCancel; split <;> rfl
  rw [e]
  unfold Session.cancelAll
  simp only
  have s : ∀ y, Bears k P w y → Bears k P w (y.cancelSearch f) := by
    intro y hy; unfold Session.cancelSearch; split <;> exact hy
  refine cancelIf_bears (cancelIf_bears (cancelIf_bears (cancelIf_bears (cancelIf_bears (s _ (cancelIf_bears (cancelIf_bears h ?_) ?_)) ?_) ?_) ?_) ?_) ?_
  all_goals intro e; rw [e] at hc; exact hc

/-- One operation call on the session. -/
theorem opStep_bears (hk : fedKind k) (hf : Follows M k P) {w w' : List Bytes} {x : Session} (h : Bears k P w x) (e : Env) (n : Nat) (c : OCall)
    (t : Token) (ho : feedOp k (some w) c (opStep M C e n c x t).1 = some w') : Bears k P w' (opStep M C e n c x t).2.1 := by
  have kd : k ≠ .enc ∧ k ≠ .dec := by rcases hk with hk | hk | hk | hk <;> subst hk <;> exact ⟨nofun, nofun⟩
  have dualIn : ∀ (i : OpIn) (k2 : OpKind),
      (if k = k2 then feedIn i (fnDual M e .enc k2 i x).1 (some w) else if k = .enc then none else some w) = some w' →
      Bears k P w' (fnDual M e .enc k2 i x).2 := by
    intro i k2 ho
    by_cases h2 : k = k2
    · subst h2
      rw [if_pos rfl] at ho
      have d := bears_dual hf kd.1 h e i
      generalize fnDual M e .enc k i x = q at ho d
      obtain ⟨r, y⟩ := q
      cases r with
      | size n => simp only [feedIn] at ho; injection ho with ho; subst ho; exact d.1 n rfl
      | bytes b =>
        have : w' = w ++ [i.data] := by simpa [feedIn] using ho.symm
        rw [this]; exact d.2 b rfl
      | _ => cases ho
    · rw [if_neg h2, if_neg kd.1] at ho
      injection ho with ho; subst ho
      exact dual_other kd.1 h2 h e i
  have dualOut : ∀ (i : OpIn) (k2 : OpKind),
      (if k = k2 then feedOut (fnDual M e .dec k2 i x).1 (some w) else if k = .dec then none else some w) = some w' →
      Bears k P w' (fnDual M e .dec k2 i x).2 := by
    intro i k2 ho
    by_cases h2 : k = k2
    · subst h2
      rw [if_pos rfl] at ho
      have d := bears_dual hf kd.2 h e i
      generalize fnDual M e .dec k i x = q at ho d
      obtain ⟨r, y⟩ := q
      cases r with
      | size n => simp only [feedOut] at ho; injection ho with ho; subst ho; exact d.1 n rfl
      | bytes b =>
        have : w' = w ++ [b] := by simpa [feedOut] using ho.symm
        rw [this]; exact d.2 b rfl
      | _ => cases ho
    · rw [if_neg h2, if_neg kd.2] at ho
      injection ho with ho; subst ho
      exact dual_other kd.2 h2 h e i
  cases c with
  | opInit k' m key sig =>
    cases m with
    | none =>
      simp only [feedOp] at ho
      by_cases hj : k' = k
      · rw [if_pos hj] at ho; cases ho
      rw [if_neg hj] at ho
      injection ho with ho; subst ho
      obtain ⟨h1, op, h2, h3⟩ := h
      refine ⟨h1, op, ?_, h3⟩
      show AMap.get (AMap.erase x.ops k') k = _
      rw [AMap.get_erase, if_neg hj]
      exact h2
    | some mp =>
      obtain ⟨m, p⟩ := mp
      unfold opStep at ho ⊢
      simp only at ho ⊢
      rcases init_only (M := M) (C := C) e k' m p key sig x t with ⟨r, hr⟩ | ⟨o, b, hr⟩
      · rw [hr] at ho ⊢
        have : w' = w := by
          simp only [feedOp, Out.of] at ho
          split at ho <;> (injection ho with ho; exact ho.symm)
        rw [this]; exact h
      · rw [hr] at ho ⊢
        simp only [feedOp, Out.of] at ho
        by_cases hj : k' = k
        · rw [if_pos hj] at ho; cases ho
        rw [if_neg hj] at ho
        injection ho with ho; subst ho
        obtain ⟨h1, op, h2, h3⟩ := h
        refine ⟨?_, op, ?_, h3⟩
        · show (if b then OpLogin.required else OpLogin.notRequired) ≠ _
          cases b <;> nofun
        · show AMap.get (AMap.insert x.ops k' o) k = _
          rw [AMap.get_insert, if_neg hj]
          exact h2
  | opRun k' a i =>
    simp only [feedOp] at ho
    by_cases hj : k' = k
    · subst hj
      rw [if_pos rfl] at ho
      exact bears_run hk hf h e a i t ho
    · rw [if_neg hj] at ho
      injection ho with ho; subst ho
      exact h.only (run_only e k' a i x t) (Ne.symm hj)
  | digestKey key =>
    simp only [feedOp] at ho
    by_cases hj : k = .digest
    · rw [if_pos hj] at ho; cases ho
    · rw [if_neg hj] at ho
      injection ho with ho; subst ho
      exact h.only (digestKey_only e key x t) hj
  | digestEncrypt i => exact dualIn i .digest ho
  | decryptDigest i => exact dualOut i .digest ho
  | signEncrypt i => exact dualIn i .sign ho
  | decryptVerify i => exact dualOut i .verify ho
  | cancel f =>
    simp only [feedOp] at ho
    by_cases hj : f &&& opFlag k = 0
    · rw [if_pos hj] at ho
      injection ho with ho; subst ho
      exact cancel_bears h hj
    · rw [if_neg hj] at ho; cases ho
  | generatePair m p a b =>
    injection ho with ho; subst ho
    unfold opStep
    simp only
    split <;> exact h
  | derive m p key tm =>
    injection ho with ho; subst ho
    unfold opStep
    simp only
    split <;> exact h
  | _ => injection ho with ho; subst ho; exact h

/-- One other call on the session. -/
theorem sessStep_bears {w : List Bytes} {x : Session} (h : Bears k P w x) (e : Env) (n : Nat) (c : SCall) (t : Token) :
    Bears k P w (sessStep C O e n c x t).2.1 := by
  cases c with
  | findInit tm =>
    unfold sessStep
    simp only
    split
    · exact h
    · unfold Session.newSearch
      split
      · exact h
      · simp only
        split
        · exact h
        · exact ⟨nofun, h.2⟩
  | find max =>
    unfold sessStep Session.findObjects
    simp only
    cases x.checkLogin with
    | error r => exact h
    | ok u =>
      cases hx : x.search with
      | none => exact h
      | some l => exact h
  | findFinal => exact h
  | getObjectSize oh =>
    unfold sessStep
    simp only
    repeat' split
    all_goals exact h
  | getAttr oh tm => unfold sessStep; simp only; split <;> exact h
  | initPin pin => unfold sessStep; simp only; split <;> exact h
  | _ => exact h

/-- Every session with the handle has the operation that goes with the parts given. -/
def Bearing (h : Nat) (k : OpKind) (P : List Bytes → Op → Prop) (o : Option (List Bytes)) (s : St) : Prop :=
  ∀ w, o = some w → ∀ i sl x, AMap.get s.slots i = some sl → AMap.get sl.sessions h = some x → Bears k P w x

/-- One call of any kind. -/
theorem bearing_step (hk : fedKind k) (hf : Follows M k P) {e : Env} {s : St} {c : Call} {h : Nat} {o : Option (List Bytes)} (hi : Inv s)
    (hb : Bearing h k P o s) : Bearing h k P (feeds h k o (c, (step M C O e s c).1)) (step M C O e s c).2 := by
  intro w' hw i sl' y hs hy
  have mv := step_sess hi hs hy
  generalize (step M C O e s c).1 = a at mv hw
  cases mv with
  | opened f hsm ho hse hl => simp [feeds] at hw
  | kept c a sl x hs0 hx hk0 hc hc2 hc3 =>
    have e1 : feeds h k o (c, a) = o := by
      unfold feeds
      split
      · rename_i h' oc r he
        injection he with he _
        rw [if_neg (by intro e; subst e; exact hc _ he)]
      · rename_i j f m he
        injection he with he he2
        rw [if_neg (by intro e; subst e; exact hc3 _ _ he he2)]
      · rfl
    rw [e1] at hw
    obtain ⟨h1, op, h2, h3⟩ := hb w' hw i sl x hs0 hx
    exact ⟨by rw [hk0.2.2]; exact h1, op, by rw [hk0.1]; exact h2, h3⟩
  | loggedIn pin sl x hs0 hx ho hse hr hl hok =>
    obtain ⟨h1, op, h2, h3⟩ := hb w' hw i sl x hs0 hx
    exact ⟨by rw [hl]; nofun, op, by rw [ho]; exact h2, h3⟩
  | sess sc sl x hg hyy =>
    obtain ⟨_, _, h1, h2⟩ := getSession_ok hg
    rw [hyy]
    exact sessStep_bears (hb w' hw i sl x h1 h2) e h sc sl.token
  | op oc sl x hg hyy =>
    obtain ⟨_, _, h1, h2⟩ := getSession_ok hg
    simp only [feeds, if_pos] at hw
    rw [hyy]
    cases o with
    | none =>
      exfalso
      have fr : ∀ a i r, feedRun a i r none = none := by
        intro a i r; unfold feedRun; repeat' split
        all_goals rfl
      have fi : ∀ i r, feedIn i r none = none := by
        intro i r; unfold feedIn; repeat' split
        all_goals rfl
      have fo : ∀ r, feedOut r none = none := by
        intro r; unfold feedOut; repeat' split
        all_goals rfl
      have : ∀ r, feedOp k none oc r = none := by
        intro r; unfold feedOp
        simp only [fr, fi, fo]
        repeat' split
        all_goals rfl
      rw [this] at hw; cases hw
    | some w => exact opStep_bears hk hf (hb w rfl i sl x h1 h2) e h oc sl.token hw

/-- Any calls. -/
theorem bearing_run (hk : fedKind k) (hf : Follows M k P) (tr : Trace) {s : St} {h : Nat} {o : Option (List Bytes)} (hi : Inv s)
    (hb : Bearing h k P o s) : Bearing h k P ((hist M C O s tr).foldl (feeds h k) o) (run M C O s tr) := by
  induction tr generalizing s o with
  | nil => exact hb
  | cons p tr ih =>
    obtain ⟨e, c⟩ := p
    exact ih (inv_step M O e s c hi) (bearing_step hk hf hi hb)

/-! ## Waiting for a login -/

/-- No session with the handle waits for a login. -/
def Calm (h : Nat) (s : St) : Prop :=
  ∀ i sl x, AMap.get s.slots i = some sl → AMap.get sl.sessions h = some x → x.login ≠ .required

/-- The call may start an operation that needs a login of its own (CKA_ALWAYS_AUTHENTICATE is looked at for these two). -/
def Spec.asksLogin (h : Nat) (c : Call) : Prop := ∃ k mp key sig, c = .op h (.opInit k (some mp) key sig) ∧ (k = .sign ∨ k = .dec)

theorem dual_login (e : Env) (k1 k2 : OpKind) (i : OpIn) (x : Session) : (fnDual M e k1 k2 i x).2.login = x.login := by
  unfold fnDual
  split
  · rfl
  · have o := (crypt_only (M := M) (e.sub 0) k1 .update i x).1
    generalize fnCrypt M (e.sub 0) k1 .update i x = q at o
    obtain ⟨r, y⟩ := q
    simp only at o ⊢
    cases r with
    | bytes b =>
      simp only
      have f := (feed_only (M := M) (e.sub 1) k2 (if k1 = .enc then i.data else b) y).1
      split <;> exact f.trans o
    | _ => exact o

theorem init_calm {k : OpKind} (hk : ¬ (k = .sign ∨ k = .dec)) (e : Env) (m : Nat) (p : Bytes) (key : Nat) (sig : Bytes) (x : Session) (t : Token)
    (hx : x.login ≠ .required) :
    (if k = .digest then fnInitDigest M e m p x t else fnInitKey M C e k m p key sig x t).2.login ≠ .required := by
  split
  · unfold fnInitDigest
    repeat' split
    all_goals first | exact hx | (intro h; cases h)
  · unfold fnInitKey
    repeat' split
    all_goals first | exact hx | skip
    show (if ((k == .sign || k == .dec) && _) = true then OpLogin.required else .notRequired) ≠ .required
    rw [if_neg]
    · nofun
    · intro h
      simp only [Bool.and_eq_true, Bool.or_eq_true, beq_iff_eq] at h
      exact hk h.1

theorem opStep_calm (e : Env) (h : Nat) (c : OCall) (x : Session) (t : Token) (hc : ¬ asksLogin h (.op h c)) (hx : x.login ≠ .required) :
    (opStep M C e h c x t).2.1.login ≠ .required := by
  cases c with
  | opInit k m key sig =>
    cases m with
    | none => exact hx
    | some mp => exact init_calm (fun hk => hc ⟨k, mp, key, sig, rfl, hk⟩) e mp.1 mp.2 key sig x t hx
  | opRun k a i => have := (run_only (M := M) (C := C) e k a i x t).1; unfold opStep; rw [this]; exact hx
  | digestKey key => have := (digestKey_only (M := M) (C := C) e key x t).1; show (fnDigestKey M C e key x t).2.login ≠ _; rw [this]; exact hx
  | digestEncrypt i => show (fnDual M e .enc .digest i x).2.login ≠ _; rw [dual_login]; exact hx
  | decryptDigest i => show (fnDual M e .dec .digest i x).2.login ≠ _; rw [dual_login]; exact hx
  | signEncrypt i => show (fnDual M e .enc .sign i x).2.login ≠ _; rw [dual_login]; exact hx
  | decryptVerify i => show (fnDual M e .dec .verify i x).2.login ≠ _; rw [dual_login]; exact hx
  | cancel f =>
    have e1 : (fnCancel f x).2 = x.cancelAll f := by unfold fnCancel; split <;> rfl
    have ci : ∀ (y : Session) g j, (y.cancelIf f g j).login = y.login := by
      intro y g j; unfold Session.cancelIf; split <;> rfl
    have cs : ∀ y : Session, (y.cancelSearch f).login = y.login := by
      intro y; unfold Session.cancelSearch; split <;> rfl
    show (fnCancel f x).2.login ≠ _
    rw [e1]
    unfold Session.cancelAll
    simp only [ci, cs]
    exact hx
  | generatePair m p a b => unfold opStep; simp only; split <;> exact hx
  | derive m p key tm => unfold opStep; simp only; split <;> exact hx
  | _ => exact hx

theorem sessStep_calm (e : Env) (n : Nat) (c : SCall) (x : Session) (t : Token) (hx : x.login ≠ .required) :
    (sessStep C O e n c x t).2.1.login ≠ .required := by
  cases c with
  | findInit tm =>
    unfold sessStep
    simp only
    split
    · exact hx
    · unfold Session.newSearch
      split
      · exact hx
      · simp only
        split
        · exact hx
        · nofun
  | find max =>
    unfold sessStep Session.findObjects
    simp only
    cases x.checkLogin with
    | error r => exact hx
    | ok u => cases x.search <;> exact hx
  | findFinal => exact hx
  | getObjectSize oh =>
    unfold sessStep
    simp only
    repeat' split
    all_goals exact hx
  | getAttr oh tm => unfold sessStep; simp only; split <;> exact hx
  | initPin pin => unfold sessStep; simp only; split <;> exact hx
  | _ => exact hx

theorem calm_step {e : Env} {s : St} {c : Call} {h : Nat} (hi : Inv s) (hc : ¬ asksLogin h c) (hb : Calm h s) : Calm h (step M C O e s c).2 := by
  intro i sl' y hs hy
  have mv := step_sess hi hs hy
  generalize (step M C O e s c).1 = a at mv
  cases mv with
  | opened f hsm ho hse hl => rw [hl]; nofun
  | kept c a sl x hs0 hx hk0 hc hc2 hc3 => rw [hk0.2.2]; exact hb i sl x hs0 hx
  | loggedIn pin sl x hs0 hx ho hse hr hl hok => rw [hl]; nofun
  | sess sc sl x hg hyy =>
    obtain ⟨_, _, h1, h2⟩ := getSession_ok hg
    rw [hyy]
    exact sessStep_calm e h sc x sl.token (hb i sl x h1 h2)
  | op oc sl x hg hyy =>
    obtain ⟨_, _, h1, h2⟩ := getSession_ok hg
    rw [hyy]
    exact opStep_calm e h oc x sl.token hc (hb i sl x h1 h2)

theorem calm_run (tr : Trace) {s : St} {h : Nat} (hi : Inv s) (hc : ∀ p ∈ tr, ¬ asksLogin h p.2) (hb : Calm h s) : Calm h (run M C O s tr) := by
  induction tr generalizing s with
  | nil => exact hb
  | cons p tr ih =>
    obtain ⟨e, c⟩ := p
    exact ih (inv_step M O e s c hi) (fun p hp => hc p (List.mem_cons_of_mem _ hp)) (calm_step hi (hc _ List.mem_cons_self) hb)

end Kry
