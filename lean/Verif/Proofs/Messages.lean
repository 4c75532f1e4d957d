import Verif.Spec.Messages
import Verif.Proofs.OpFrame

/-! # The notebook about messages agrees with the sessions -/

namespace Kry
open Spec

variable {M : Mechs} {C : Crypto} {O : Oracle}

/-- The session agrees with the notebook. -/
def Agrees (g : OpKind → Known) (x : Session) : Prop :=
  ∀ k, manyMessages k = true → ∀ o, AMap.get x.ops k = some o → o.fin = false →
    (g k = .no → o.busy = false) ∧ (g k = .yes → o.busy = true)

/-- The message operations of a session are not touched. -/
def Apart2 (x y : Session) : Prop := ∀ k, manyMessages k = true → AMap.get y.ops k = AMap.get x.ops k

theorem Apart2.refl (x : Session) : Apart2 x x := fun _ _ => rfl

theorem Apart2.trans {x y z : Session} (a : Apart2 x y) (b : Apart2 y z) : Apart2 x z :=
  fun k h => (b k h).trans (a k h)

theorem put_apart {x : Session} {k : OpKind} (o : Op) (hk : manyMessages k = false) : Apart2 x (x.putOp k o) := by
  intro j hj
  unfold Session.putOp
  rw [AMap.get_insert, if_neg]
  rintro rfl
  rw [hk] at hj; cases hj

theorem Agrees.apart {g : OpKind → Known} {x y : Session} (h : Agrees g x) (a : Apart2 x y) : Agrees g y := by
  intro k hk o ho
  rw [a k hk] at ho
  exact h k hk o ho

theorem sign_apart (e : Env) (a : Act) (i : OpIn) (x : Session) (t : Token) : Apart2 x (fnSign M C e a i x t).2.1 := by
  unfold fnSign
  repeat' split
  all_goals first | exact .refl _ | exact put_apart _ rfl

theorem verify_apart (e : Env) (k : OpKind) (hk : manyMessages k = false) (a : Act) (i : OpIn) (x : Session) (t : Token) :
    Apart2 x (fnVerify M C e k a i x t).2.1 := by
  unfold fnVerify
  repeat' split
  all_goals first | exact .refl _ | exact put_apart _ hk

theorem feed_apart (e : Env) (k : OpKind) (hk : manyMessages k = false) (d : Bytes) (x : Session) :
    Apart2 x (fnFeed M e k d x).2 := by
  unfold fnFeed
  repeat' split
  all_goals first | exact .refl _ | exact put_apart _ hk

theorem digest_apart (e : Env) (a : Act) (i : OpIn) (x : Session) : Apart2 x (fnDigest M e a i x).2 := by
  unfold fnDigest
  repeat' split
  all_goals first | exact .refl _ | exact put_apart _ rfl

theorem crypt_apart (e : Env) (k : OpKind) (hk : manyMessages k = false) (a : Act) (i : OpIn) (x : Session) :
    Apart2 x (fnCrypt M e k a i x).2 := by
  unfold fnCrypt
  repeat' split
  all_goals first | exact .refl _ | exact put_apart _ hk

theorem opRun_apart (e : Env) (k : OpKind) (hk : manyMessages k = false) (a : Act) (i : OpIn) (x : Session) (t : Token) :
    Apart2 x (fnOpRun M C e k a i x t).2.1 := by
  unfold fnOpRun
  cases k with
  | msgEnc => cases hk
  | msgDec => cases hk
  | enc => cases a <;> first | exact .refl _ | exact crypt_apart _ _ rfl _ _ _
  | dec => cases a <;> first | exact .refl _ | exact crypt_apart _ _ rfl _ _ _
  | digest => cases a <;> first | exact .refl _ | exact digest_apart _ _ _ _ | exact feed_apart _ _ rfl _ _
  | sign => cases a <;> first | exact .refl _ | exact sign_apart _ _ _ _ _ | exact feed_apart _ _ rfl _ _
  | verify => cases a <;> first | exact .refl _ | exact verify_apart _ _ rfl _ _ _ _ | exact feed_apart _ _ rfl _ _
  | verifySig => cases a <;> first | exact .refl _ | exact verify_apart _ _ rfl _ _ _ _ | exact feed_apart _ _ rfl _ _

theorem digestKey_apart (e : Env) (key : Nat) (x : Session) (t : Token) : Apart2 x (fnDigestKey M C e key x t).2 := by
  unfold fnDigestKey
  repeat' split
  all_goals first | exact .refl _ | exact feed_apart _ _ rfl _ _

theorem dual_apart (e : Env) (k1 k2 : OpKind) (h1 : manyMessages k1 = false) (h2 : manyMessages k2 = false) (i : OpIn)
    (x : Session) : Apart2 x (fnDual M e k1 k2 i x).2 := by
  unfold fnDual
  split
  · exact .refl _
  · have a := crypt_apart (M := M) (e.sub 0) k1 h1 .update i x
    generalize fnCrypt M (e.sub 0) k1 .update i x = p at a ⊢
    obtain ⟨r, y⟩ := p
    cases r with
    | bytes b =>
      simp only
      have c := feed_apart (M := M) (e.sub 1) k2 h2 (if k1 = .enc then i.data else b) y
      generalize fnFeed M (e.sub 1) k2 (if k1 = .enc then i.data else b) y = q at c ⊢
      obtain ⟨r', z⟩ := q
      cases r' <;> exact a.trans c
    | _ => exact a

theorem getOp_get {x : Session} {k : OpKind} {o : Op} (h : x.getOp k = .ok o) : AMap.get x.ops k = some o ∧ o.fin = false := by
  unfold Session.getOp at h
  split at h
  · cases h
  · split at h
    · split at h
      · cases h
      · rename_i hf
        injection h with h; subst h
        exact ⟨by assumption, by simpa using hf⟩
    · cases h

/-- Putting an operation whose message is open or not. -/
theorem Agrees.put {g g' : OpKind → Known} {x : Session} {k : OpKind} {o : Op} (h : Agrees g x)
    (ho : ∀ j, j ≠ k → g' j = g j)
    (hk : o.fin = false → (g' k = .no → o.busy = false) ∧ (g' k = .yes → o.busy = true)) :
    Agrees g' (x.putOp k o) := by
  intro j hj p hp hf
  unfold Session.putOp at hp
  simp only at hp
  rw [AMap.get_insert] at hp
  split at hp
  · rename_i he
    injection hp with hp; subst hp; subst he
    exact hk hf
  · rename_i hne
    rw [ho j (by first | exact hne | exact Ne.symm hne)]
    exact h j hj p hp hf

/-- The notebook forgets. -/
theorem Agrees.less {g g' : OpKind → Known} {x : Session} (h : Agrees g x)
    (ho : ∀ j, g' j = g j ∨ g' j = .maybe) : Agrees g' x := by
  intro j hj p hp hf
  rcases ho j with e | e
  · rw [e]; exact h j hj p hp hf
  · rw [e]; exact ⟨nofun, nofun⟩

theorem message_agrees (e : Env) (k : OpKind) (hk : manyMessages k = true) (a : Act) (i : OpIn) (x : Session) (t : Token)
    (g : OpKind → Known) (h : Agrees g x) :
    Agrees (seeMsg g (.opRun k a i) (fnMessage M e k a i x t).1) (fnMessage M e k a i x t).2 := by
  have oth : ∀ r j, j ≠ k → seeMsg g (.opRun k a i) r j = g j := by
    intro r j hj; simp [seeMsg, hj]
  have err : ∀ r, Agrees (seeMsg g (.opRun k a i) (.err r)) x := by
    intro r
    refine h.less fun j => ?_
    by_cases hj : j = k
    · subst hj
      cases a <;> simp [seeMsg]
      all_goals (by_cases hn : g j = .no <;> simp [hn])
    · exact .inl (oth _ j hj)
  have here : ∀ {op : Op}, x.getOp k = .ok op → (g k = .no → op.busy = false) ∧ (g k = .yes → op.busy = true) := by
    intro op ho
    obtain ⟨h1, h2⟩ := getOp_get ho
    exact h k hk op h1 h2
  have siz : ∀ {op : Op} (n : Nat) (o' : Op), x.getOp k = .ok op → o'.busy = op.busy →
      Agrees (seeMsg g (.opRun k a i) (.size n)) (x.putOp k o') := by
    intro op n o' ho hb
    refine h.put (oth _) (fun _ => ?_)
    rw [hb]
    have : seeMsg g (.opRun k a i) (.size n) k = g k := by cases a <;> simp [seeMsg]
    rw [this]; exact here ho
  have len : ∀ {op : Op} (n : Nat), x.getOp k = .ok op →
      Agrees (seeMsg g (.opRun k a i) (Out.ofSize (lenOp M k a op n).1)) (x.putOp k (lenOp M k a op n).2) := by
    intro op n ho
    have hb : (lenOp M k a op n).2.busy = op.busy := rfl
    cases hr : (lenOp M k a op n).1 with
    | ok m => exact siz m _ ho hb
    | error r =>
      refine h.put (oth _) (fun _ => ?_)
      rw [hb]
      have hh := here ho
      have : seeMsg g (.opRun k a i) (Out.ofSize (.error r)) k = g k ∨
          seeMsg g (.opRun k a i) (Out.ofSize (.error r)) k = .maybe := by
        cases a <;> simp [seeMsg, Out.ofSize]
        all_goals (by_cases hn : g k = .no <;> simp [hn])
      rcases this with e | e <;> rw [e]
      · exact hh
      · exact ⟨nofun, nofun⟩
  unfold fnMessage
  cases a with
  | oneShot =>
    simp only
    split
    · exact err _
    split
    · exact err _
    rename_i op ho
    split
    · exact err _
    rename_i hb
    split
    · exact len _ ho
    · generalize runOp M e k .oneShot op i = p
      obtain ⟨r, o'⟩ := p
      cases r with
      | ok b => exact h.put (oth _) (fun _ => ⟨fun _ => rfl, fun hy => by simp [seeMsg] at hy⟩)
      | error r =>
        refine h.put (oth _) (fun _ => ?_)
        have := (here ho).2
        constructor <;> intro hy
        · simp only [seeMsg] at hy; simp at hy; split at hy <;> simp_all
        · simp only [seeMsg] at hy; simp at hy; split at hy <;> simp_all
  | «begin» =>
    simp only
    split
    · exact err _
    split
    · exact err _
    rename_i op ho
    split
    · exact err _
    rename_i hb
    split
    · exact err _
    split
    · exact err _
    · generalize runOp M e k .begin op i = p
      obtain ⟨r, o'⟩ := p
      cases r with
      | ok b => exact h.put (oth _) (fun _ => ⟨fun hy => by simp [seeMsg] at hy, fun _ => rfl⟩)
      | error r =>
        refine h.put (oth _) (fun _ => ?_)
        have := (here ho).2
        constructor <;> intro hy
        · simp only [seeMsg] at hy; simp at hy; split at hy <;> simp_all
        · simp only [seeMsg] at hy; simp at hy; split at hy <;> simp_all
  | next =>
    simp only
    split
    · exact err _
    split
    · exact err _
    rename_i op ho
    split
    · exact err _
    rename_i hb
    split
    · exact len _ ho
    · generalize runOp M e k .next op i = p
      obtain ⟨r, o'⟩ := p
      cases r with
      | ok b => exact h.put (oth _) (fun _ => ⟨fun hy => by simp [seeMsg] at hy, fun _ => rfl⟩)
      | error r =>
        refine h.put (oth _) (fun _ => ⟨fun hy => ?_, fun _ => rfl⟩)
        have := (here ho).1 (by simpa [seeMsg] using hy)
        simp_all
  | last =>
    simp only
    split
    · exact err _
    split
    · exact err _
    rename_i op ho
    split
    · exact err _
    rename_i hb
    split
    · exact len _ ho
    · generalize runOp M e k .last op i = p
      obtain ⟨r, o'⟩ := p
      cases r with
      | ok b => exact h.put (oth _) (fun _ => ⟨fun _ => rfl, fun hy => by simp [seeMsg] at hy⟩)
      | error r =>
        refine h.put (oth _) (fun _ => ⟨fun hy => ?_, fun _ => rfl⟩)
        have := (here ho).1 (by simpa [seeMsg] using hy)
        simp_all
  | finish =>
    simp only
    split
    · exact err _
    split
    · exact err _
    · exact h.put (oth _) (fun hf => by cases hf)
  | update => exact err _
  | final => exact err _

theorem cancelIf_get {x : Session} {f f' : Nat} {k j : OpKind} : AMap.get (x.cancelIf f f' k).ops j =
    if f &&& f' ≠ 0 ∧ j = k then none else AMap.get x.ops j := by
  unfold Session.cancelIf Session.cancelOp
  split
  · rename_i hf
    simp only [AMap.get_erase]
    by_cases hj : j = k
    · subst hj; simp [hf]
    · simp [hj, Ne.symm hj]
  · rename_i hf
    simp [hf]

theorem cancel_agrees (f : Nat) (x : Session) (g : OpKind → Known) (h : Agrees g x) :
    Agrees (fun j => if f &&& cancelFlag (.op j) ≠ 0 then .no else g j) (fnCancel f x).2 := by
  have e1 : (fnCancel f x).2 = x.cancelAll f := by unfold fnCancel; split <;> rfl
  have cs : ∀ y : Session, (y.cancelSearch f).ops = y.ops := by intro y; unfold Session.cancelSearch; split <;> rfl
  rw [e1]
  intro k hk o ho hf
  cases k <;> first | (cases hk; done) | skip
  all_goals
    simp only [Session.cancelAll, cancelIf_get, cs] at ho
    simp only [cancelFlag]
    split at ho <;> simp_all
    first
      | exact h .msgEnc rfl o ho.2 hf
      | exact h .msgDec rfl o ho.2 hf

theorem initKey_cases' (e : Env) (k : OpKind) (m : Nat) (p : Bytes) (key : Nat) (sig : Bytes) (x : Session) (t : Token) :
    (∃ r, fnInitKey M C e k m p key sig x t = (.error r, x)) ∨
    ∃ o b, fnInitKey M C e k m p key sig x t = (.ok (), x.setOp k o b) ∧ o.busy = false := by
  unfold fnInitKey
  split
  · exact .inl ⟨_, rfl⟩
  split
  · exact .inl ⟨_, rfl⟩
  split
  · exact .inl ⟨_, rfl⟩
  split
  · exact .inl ⟨_, rfl⟩
  split
  · exact .inl ⟨_, rfl⟩
  split
  · exact .inl ⟨_, rfl⟩
  · rename_i op hop
    refine .inr ⟨_, _, rfl, ?_⟩
    unfold newOp at hop
    extract_lets chk at hop
    clear_value chk
    cases chk with
    | error r => cases hop
    | ok _ =>
      simp only at hop
      split at hop
      · cases hop
      · injection hop with hop; rw [← hop]

theorem opStep_agrees (e : Env) (h : Nat) (c : OCall) (x : Session) (t : Token) (g : OpKind → Known) (hg : Agrees g x) :
    Agrees (seeMsg g c (opStep M C e h c x t).1) (opStep M C e h c x t).2.1 := by
  cases c with
  | opInit k mm key sig =>
    cases mm with
    | none =>
      intro j hj o ho hf
      unfold opStep Session.cancelOp at ho
      simp only [AMap.get_erase] at ho
      split at ho
      · cases ho
      · rename_i hne
        simp only [seeMsg, Ne.symm hne, hne, if_false]
        exact hg j hj o ho hf
    | some mp =>
      obtain ⟨m, p⟩ := mp
      unfold opStep
      simp only
      split
      · rename_i hk
        subst hk
        unfold fnInitDigest
        repeat' split
        all_goals
          intro j hj o ho hf
          have hne : j ≠ .digest := by rintro rfl; cases hj
          simp only [seeMsg, hne, false_and, if_false]
          refine hg j hj o ?_ hf
          first
            | exact ho
            | (unfold Session.setOp at ho; simp only [AMap.get_insert, Ne.symm hne, if_false] at ho; exact ho)
      · rcases initKey_cases' (M := M) (C := C) e k m p key sig x t with ⟨r, hr⟩ | ⟨o, b, hr, hb⟩
        · rw [hr]
          simp only [Out.of]
          refine hg.less fun j => .inl ?_
          simp [seeMsg]
        · rw [hr]
          simp only [Out.of]
          intro j hj o' ho hf
          unfold Session.setOp at ho
          simp only [AMap.get_insert] at ho
          split at ho
          · rename_i he
            injection ho with ho; subst ho; subst he
            simp [seeMsg, hb]
          · rename_i hne
            simp only [seeMsg, Ne.symm hne, hne, false_and, if_false]
            exact hg j hj o' ho hf
  | opRun k a i =>
    unfold opStep
    simp only
    by_cases hk : manyMessages k = true
    · have := message_agrees (M := M) e k hk a i x t g hg
      unfold fnOpRun
      cases k <;> first | exact this | cases hk
    · have hk : manyMessages k = false := by simpa using hk
      intro j hj o ho hf
      rw [opRun_apart e k hk a i x t j hj] at ho
      have hne : j ≠ k := by rintro rfl; rw [hk] at hj; cases hj
      simp only [seeMsg, ne_eq, hne, not_false_eq_true, if_true]
      exact hg j hj o ho hf
  | digestKey key =>
    unfold opStep
    simp only
    exact hg.apart (digestKey_apart e key x t)
  | digestEncrypt i => exact hg.apart (dual_apart e .enc .digest rfl rfl i x)
  | decryptDigest i => exact hg.apart (dual_apart e .dec .digest rfl rfl i x)
  | signEncrypt i => exact hg.apart (dual_apart e .enc .sign rfl rfl i x)
  | decryptVerify i => exact hg.apart (dual_apart e .dec .verify rfl rfl i x)
  | cancel f => exact cancel_agrees f x g hg
  | generateKey m p tm => exact hg
  | generatePair m p pub priv =>
    have : (opStep M C e h (.generatePair m p pub priv) x t).2.1 = x := by
      unfold opStep
      simp only
      split <;> rfl
    rw [this]; exact hg
  | wrap m p w k out => exact hg
  | unwrap m p key data tm => exact hg
  | derive m p key tm =>
    have : (opStep M C e h (.derive m p key tm) x t).2.1 = x := by
      unfold opStep
      simp only
      split <;> rfl
    rw [this]; exact hg
  | encapsulate m key tm out => exact hg
  | decapsulate m key data tm => exact hg

theorem sessStep_ops (e : Env) (h : Nat) (c : SCall) (x : Session) (t : Token) :
    (sessStep C O e h c x t).2.1.ops = x.ops := by
  unfold sessStep
  cases c <;> simp only
  all_goals first | rfl | skip
  all_goals first
    | (unfold Session.newSearch; repeat' split
       all_goals rfl)
    | (unfold Session.findObjects; repeat' split
       all_goals rfl)
    | (repeat' split
       all_goals rfl)

/-- Every session agrees with the notebook. -/
def MInv (g : Nat → OpKind → Known) (s : St) : Prop :=
  ∀ i sl h x, AMap.get s.slots i = some sl → AMap.get sl.sessions h = some x → Agrees (g h) x

theorem agrees_ops {g : OpKind → Known} {x y : Session} (h : Agrees g x) (e : y.ops = x.ops) : Agrees g y := by
  unfold Agrees
  rw [e]; exact h

theorem msg_step {e : Env} {s : St} {c : Call} {g : Nat → OpKind → Known} (hi : Inv s)
    (hk : MInv g s) : MInv (seeMsgs g (c, (step M C O e s c).1)) (step M C O e s c).2 := by
  intro i sl' h y hs hy
  have mv := step_sess hi hs hy
  generalize (step M C O e s c).1 = a at mv
  cases mv with
  | opened f hsm ho hse hl =>
    intro k _ o hg
    rw [ho] at hg; cases hg
  | kept c a sl x hs0 hx hk0 hc hc2 hc3 =>
    have kx := agrees_ops (hk i sl h x hs0 hx) hk0.1
    have : seeMsgs g (c, a) h = g h := by
      cases c with
      | openSession j f =>
        cases a with
        | handle n =>
          show (if h = n then fun _ => Known.no else g h) = g h
          rw [if_neg]
          intro e; subst e
          exact hc3 j f rfl rfl
        | _ => rfl
      | op h' oc =>
        show (if h = h' then seeMsg (g h) oc a else g h) = g h
        rw [if_neg]
        intro e; subst e
        exact hc _ rfl
      | _ => rfl
    rw [this]; exact kx
  | loggedIn pin sl x hs0 hx ho hse hr hl hok => exact agrees_ops (hk i sl h x hs0 hx) ho
  | sess sc sl x hg hyy =>
    obtain ⟨_, _, h1, h2⟩ := getSession_ok hg
    have kx := hk i sl h x h1 h2
    rw [hyy]
    exact agrees_ops kx (sessStep_ops e h sc x sl.token)
  | op oc sl x hg hyy =>
    obtain ⟨_, _, h1, h2⟩ := getSession_ok hg
    have kx := hk i sl h x h1 h2
    have : ∀ a, seeMsgs g (.op h oc, a) h = seeMsg (g h) oc a := by
      intro a; funext j; simp [seeMsgs]
    rw [this, hyy]
    exact opStep_agrees e h oc x sl.token (g h) kx

theorem msg_run (tr : Trace) {s : St} {g : Nat → OpKind → Known} (hi : Inv s)
    (hk : MInv g s) : MInv ((hist M C O s tr).foldl seeMsgs g) (run M C O s tr) := by
  induction tr generalizing s g with
  | nil => exact hk
  | cons p tr ih =>
    obtain ⟨e, c⟩ := p
    exact ih (inv_step M O e s c hi) (msg_step hi hk)

theorem msg_reach (d : List (Nat × Db)) (tr : Trace) :
    MInv (message (hist M C O (St.init d) tr)) (run M C O (St.init d) tr) :=
  msg_run tr (inv_empty d 0) (by intro i sl h x hs; cases hs)

end Kry
