import Verif.Proofs.Follow

/-!
# An operation by itself

What the calls of one operation do to it, without the session around it, and that every other call leaves it alone.
-/

namespace Kry
open Spec

variable {M : Mechs} {C : Crypto} {O : Oracle}

/-- Mechanism `m` changes no stored object (HOTP does: `src/hotp.rs`). -/
structure Spec.Stateless (M : Mechs) (m : Nat) : Prop where
  new : ∀ e k q key sig op, M.new e k m q key sig = .ok op → op.upd = none
  run : ∀ e k a op i, op.mech = m → op.upd = none → (M.run e k a op i).2.upd = none
  len : ∀ k a op n, op.mech = m → op.upd = none → (M.len k a op n).2.upd = none

/-- A call that gives out a value of known length. -/
def soloGive (e : Env) (k : OpKind) (a : Act) (i : OpIn) (v : Op) : Out × Op :=
  match (lenOp M k a v i.data.length).1 with
  | .error r => (.err r, v)
  | .ok n => match i.out with
    | none => (.size n, v)
    | some b => if b < n then (.err .bufferTooSmall, v) else (Out.ofBytes (runOp M e k a v i).1, (runOp M e k a v i).2)

/-- A check. -/
def soloCheck (e : Env) (k : OpKind) (a : Act) (i : OpIn) (v : Op) : Out × Op :=
  match (if k = .verify then
        match (lenOp M k a v i.data.length).1 with
        | .error r => .error r
        | .ok n => if n ≠ i.sig.length then .error .signatureLenRange else .ok ()
      else .ok () : Res Unit) with
  | .error r => (.err r, v)
  | .ok () => (match (runOp M (e.sub 0) k a v i).1 with
    | .error r => .err r
    | .ok _ => .ok, (runOp M (e.sub 0) k a v i).2)

/-- A part. -/
def soloFeed (e : Env) (k : OpKind) (d : Bytes) (v : Op) : Out × Op :=
  (match (runOp M e k .update v { (default : OpIn) with data := d }).1 with
    | .error r => .err r
    | .ok _ => .ok, (runOp M e k .update v { (default : OpIn) with data := d }).2)

/-- Encryption and decryption. -/
def soloCrypt (e : Env) (k : OpKind) (a : Act) (i : OpIn) (v : Op) : Out × Op :=
  match i.out with
  | none => (Out.ofSize (lenOp M k a v i.data.length).1, (lenOp M k a v i.data.length).2)
  | some _ => (Out.ofBytes (runOp M e k a v i).1, (runOp M e k a v i).2)

/-- A call of an operation that goes on. -/
def soloLive (M : Mechs) (e : Env) (k : OpKind) (a : Act) (i : OpIn) (v : Op) : Out × Op :=
  match a with
  | .update => if k = .enc ∨ k = .dec then soloCrypt (M := M) e k a i v else soloFeed (M := M) e k i.data v
  | _ => if k = .enc ∨ k = .dec then soloCrypt (M := M) e k a i v
    else if k = .digest then soloGive (M := M) e k a i v
    else if k = .sign then soloGive (M := M) (e.sub 0) k a i v
    else soloCheck (M := M) e k a i v

/-- The calls there are for one operation. -/
def soloCall (a : Act) : Prop := a = .oneShot ∨ a = .update ∨ a = .final

instance (a : Act) : Decidable (soloCall a) := inferInstanceAs (Decidable (_ ∨ _))

/-- A call. -/
def solo (M : Mechs) (e : Env) (k : OpKind) (a : Act) (i : OpIn) (v : Op) : Out × Op :=
  if soloCall a then
    if v.fin then (.err .operationNotInitialized, v) else soloLive M e k a i v
  else (.err .functionNotSupported, v)

/-- The session has the operation `v` of kind `k` and no login to wait for. -/
def Has (k : OpKind) (v : Op) (x : Session) : Prop := (x.login ≠ .notInit ∧ x.login ≠ .required) ∧ AMap.get x.ops k = some v

theorem Has.getOp {k : OpKind} {v : Op} {x : Session} (h : Has k v x) : x.getOp k = if v.fin then .error .operationNotInitialized else .ok v := by
  obtain ⟨⟨h1, h2⟩, h3⟩ := h
  unfold Session.getOp Session.checkLogin
  rw [h3]
  cases hl : x.login with
  | notInit => exact absurd hl h1
  | required => exact absurd hl h2
  | _ => rfl

theorem Has.put {k : OpKind} {v v' : Op} {x : Session} (h : Has k v x) : Has k v' (x.putOp k v') :=
  ⟨h.1, by show AMap.get (AMap.insert x.ops k v') k = _; rw [AMap.get_insert, if_pos rfl]⟩

/-- The mechanism and the update of the operation. -/
def Plainly (m : Nat) (v : Op) : Prop := v.mech = m ∧ v.upd = none

theorem plainly_run {m : Nat} (hm : Stateless M m) {v : Op} (h : Plainly m v) (e : Env) (k : OpKind) (a : Act) (i : OpIn) : Plainly m (runOp M e k a v i).2 :=
  ⟨h.1, hm.run e k a v i h.1 h.2⟩

theorem plainly_len {m : Nat} (hm : Stateless M m) {v : Op} (h : Plainly m v) (k : OpKind) (a : Act) (n : Nat) : Plainly m (lenOp M k a v n).2 :=
  ⟨h.1, hm.len k a v n h.1 h.2⟩

theorem plainly_solo {m : Nat} (hm : Stateless M m) {v : Op} (h : Plainly m v) (e : Env) (k : OpKind) (a : Act) (i : OpIn) : Plainly m (solo M e k a i v).2 := by
  have g : ∀ e, Plainly m (soloGive (M := M) e k a i v).2 := by
    intro e; unfold soloGive
    repeat' split
    all_goals first | exact h | exact plainly_run hm h _ _ _ _
  have c : Plainly m (soloCheck (M := M) e k a i v).2 := by
    unfold soloCheck
    split
    · exact h
    · exact plainly_run hm h _ _ _ _
  have y : Plainly m (soloCrypt (M := M) e k a i v).2 := by
    unfold soloCrypt
    split
    · exact plainly_len hm h _ _ _
    · exact plainly_run hm h _ _ _ _
  unfold solo
  split
  · split
    · exact h
    · unfold soloLive
      repeat' split
      all_goals first | exact y | exact g _ | exact c | exact plainly_run hm h _ _ _ _
  · exact h

theorem afterUse_none {e : Env} {op : Op} {t : Token} (h : op.upd = none) : afterUse C e op t = (.ok (), t) := by
  unfold afterUse; rw [h]

variable {k : OpKind} {v : Op} {x : Session} {m : Nat}

theorem sign_solo (hm : Stateless M m) (hv : Plainly m v) (h : Has .sign v x) (e : Env) (a : Act) (i : OpIn) (t : Token) :
    (fnSign M C e a i x t).1 = (if v.fin then (.err .operationNotInitialized, v) else soloGive (M := M) (e.sub 0) .sign a i v).1 ∧
      Has .sign (if v.fin then (.err .operationNotInitialized, v) else soloGive (M := M) (e.sub 0) .sign a i v).2 (fnSign M C e a i x t).2.1 := by
  unfold fnSign
  rw [h.getOp]
  by_cases hf : v.fin = true
  · simp only [if_pos hf]; exact ⟨trivial, h⟩
  simp only [if_neg hf]
  unfold soloGive
  have tr := plainly_run hm hv (e.sub 0) .sign a i
  generalize runOp M (e.sub 0) .sign a v i = q at tr
  obtain ⟨r, v'⟩ := q
  cases (lenOp M .sign a v i.data.length).1 with
  | error r => exact ⟨rfl, h⟩
  | ok n =>
    cases i.out with
    | none => exact ⟨rfl, h⟩
    | some b =>
      by_cases hb : b < n
      · simp only [if_pos hb]; exact ⟨trivial, h⟩
      · simp only [if_neg hb]
        cases r with
        | error r => exact ⟨rfl, h.put⟩
        | ok b' => simp only [afterUse_none tr.2]; exact ⟨rfl, h.put⟩

theorem verify_solo (hm : Stateless M m) (hv : Plainly m v) (h : Has k v x) (e : Env) (a : Act) (i : OpIn) (t : Token) :
    (fnVerify M C e k a i x t).1 = (if v.fin then (.err .operationNotInitialized, v) else soloCheck (M := M) e k a i v).1 ∧
      Has k (if v.fin then (.err .operationNotInitialized, v) else soloCheck (M := M) e k a i v).2 (fnVerify M C e k a i x t).2.1 := by
  unfold fnVerify
  rw [h.getOp]
  by_cases hf : v.fin = true
  · simp only [if_pos hf]; exact ⟨trivial, h⟩
  simp only [if_neg hf]
  unfold soloCheck
  have tr := plainly_run hm hv (e.sub 0) k a i
  generalize runOp M (e.sub 0) k a v i = q at tr
  obtain ⟨r, v'⟩ := q
  generalize (if k = .verify then
        match (lenOp M k a v i.data.length).1 with
        | .error r => .error r
        | .ok n => if n ≠ i.sig.length then .error .signatureLenRange else .ok ()
      else .ok () : Res Unit) = l
  cases l with
  | error r => exact ⟨rfl, h⟩
  | ok u =>
    cases r with
    | error r => exact ⟨rfl, h.put⟩
    | ok b' => simp only [afterUse_none tr.2]; exact ⟨rfl, h.put⟩

theorem digest_solo (h : Has .digest v x) (e : Env) (a : Act) (i : OpIn) :
    (fnDigest M e a i x).1 = (if v.fin then (.err .operationNotInitialized, v) else soloGive (M := M) e .digest a i v).1 ∧
      Has .digest (if v.fin then (.err .operationNotInitialized, v) else soloGive (M := M) e .digest a i v).2 (fnDigest M e a i x).2 := by
  unfold fnDigest
  rw [h.getOp]
  by_cases hf : v.fin = true
  · simp only [if_pos hf]; exact ⟨trivial, h⟩
  simp only [if_neg hf]
  unfold soloGive
  cases (lenOp M .digest a v i.data.length).1 with
  | error r => exact ⟨rfl, h⟩
  | ok n =>
    cases i.out with
    | none => exact ⟨rfl, h⟩
    | some b =>
      by_cases hb : b < n
      · simp only [if_pos hb]; exact ⟨trivial, h⟩
      · simp only [if_neg hb]; exact ⟨trivial, h.put⟩

theorem feed_solo (h : Has k v x) (e : Env) (d : Bytes) :
    Out.of (fnFeed M e k d x).1 = (if v.fin then (.err .operationNotInitialized, v) else soloFeed (M := M) e k d v).1 ∧
      Has k (if v.fin then (.err .operationNotInitialized, v) else soloFeed (M := M) e k d v).2 (fnFeed M e k d x).2 := by
  unfold fnFeed
  rw [h.getOp]
  by_cases hf : v.fin = true
  · simp only [if_pos hf]; exact ⟨rfl, h⟩
  simp only [if_neg hf]
  unfold soloFeed
  generalize runOp M e k .update v { (default : OpIn) with data := d } = q
  obtain ⟨r, v'⟩ := q
  cases r <;> exact ⟨rfl, h.put⟩

theorem crypt_solo (h : Has k v x) (e : Env) (a : Act) (i : OpIn) :
    (fnCrypt M e k a i x).1 = (if v.fin then (.err .operationNotInitialized, v) else soloCrypt (M := M) e k a i v).1 ∧
      Has k (if v.fin then (.err .operationNotInitialized, v) else soloCrypt (M := M) e k a i v).2 (fnCrypt M e k a i x).2 := by
  unfold fnCrypt
  rw [h.getOp]
  by_cases hf : v.fin = true
  · simp only [if_pos hf]; exact ⟨trivial, h⟩
  simp only [if_neg hf]
  unfold soloCrypt
  cases i.out with
  | none => exact ⟨rfl, h.put⟩
  | some b => exact ⟨rfl, h.put⟩

/-- A call of the operation, seen from the session. -/
theorem run_solo (hm : Stateless M m) (hv : Plainly m v) (hk : manyMessages k = false) (h : Has k v x) (e : Env) (a : Act) (i : OpIn) (t : Token) :
    (fnOpRun M C e k a i x t).1 = (solo M e k a i v).1 ∧ Has k (solo M e k a i v).2 (fnOpRun M C e k a i x t).2.1 := by
  unfold fnOpRun solo
  cases k with
  | msgEnc => cases hk
  | msgDec => cases hk
  | enc => cases a <;> first | exact crypt_solo h e _ i | exact ⟨rfl, h⟩
  | dec => cases a <;> first | exact crypt_solo h e _ i | exact ⟨rfl, h⟩
  | digest => cases a <;> first | exact digest_solo h e _ i | exact feed_solo h e _ | exact ⟨rfl, h⟩
  | sign => cases a <;> first | exact sign_solo hm hv h e _ i t | exact feed_solo h e _ | exact ⟨rfl, h⟩
  | verify => cases a <;> first | exact verify_solo hm hv h e _ i t | exact feed_solo h e _ | exact ⟨rfl, h⟩
  | verifySig => cases a <;> first | exact verify_solo hm hv h e _ i t | exact feed_solo h e _ | exact ⟨rfl, h⟩

/-! ## Other calls -/

/-- The call may change operation `k` of session `h`, or whether the session waits for a login, otherwise than by the calls that work on the operation. -/
def Spec.meddles (h : Nat) (k : OpKind) : Call → Bool
  | .op h' c => decide (h' = h) && match c with
    | .opInit k' mp _ _ => decide (k' = k) || (mp.isSome && decide (k' = .sign ∨ k' = .dec))
    | .digestKey _ => decide (k = .digest)
    | .digestEncrypt _ => decide (k = .enc ∨ k = .digest)
    | .decryptDigest _ => decide (k = .dec ∨ k = .digest)
    | .signEncrypt _ => decide (k = .enc ∨ k = .sign)
    | .decryptVerify _ => decide (k = .dec ∨ k = .verify)
    | .cancel f => decide (f &&& opFlag k ≠ 0)
    | _ => false
  | _ => false

/-- The call works on operation `k` of session `h`. -/
def Spec.own (h : Nat) (k : OpKind) : Call → Bool
  | .op h' (.opRun k' _ _) => decide (h' = h) && decide (k' = k)
  | _ => false

theorem has_bears : Has k v x ↔ Bears k (fun _ o => o = v) [] x ∧ x.login ≠ .required :=
  ⟨fun h => ⟨⟨h.1.1, v, h.2, rfl⟩, h.1.2⟩, fun ⟨⟨h1, _, h2, h3⟩, h4⟩ => ⟨⟨h1, h4⟩, h3 ▸ h2⟩⟩

theorem has_opStep (h : Has k v x) (e : Env) (n : Nat) (c : OCall) (t : Token) (h1 : meddles n k (.op n c) = false) (h2 : own n k (.op n c) = false) :
    Has k v (opStep M C e n c x t).2.1 := by
  rw [has_bears] at h ⊢
  simp only [meddles, decide_true, Bool.true_and] at h1
  have calm : (opStep M C e n c x t).2.1.login ≠ .required := by
    refine opStep_calm e n c x t ?_ h.2
    rintro ⟨k', mp, key, sig, hc, hk⟩
    injection hc with _ hc; subst hc
    simp [hk] at h1
  refine ⟨?_, calm⟩
  have h := h.1
  cases c with
  | opInit k' mp key sig =>
    simp only [Bool.or_eq_false_iff, decide_eq_false_iff_not] at h1
    have hj := h1.1
    cases mp with
    | none =>
      obtain ⟨g1, op, g2, g3⟩ := h
      refine ⟨g1, op, ?_, g3⟩
      show AMap.get (AMap.erase x.ops k') k = _
      rw [AMap.get_erase, if_neg hj]
      exact g2
    | some mp =>
      unfold opStep
      simp only
      rcases init_only (M := M) (C := C) e k' mp.1 mp.2 key sig x t with ⟨r, hr⟩ | ⟨o, b, hr⟩
      · rw [hr]; exact h
      · rw [hr]
        obtain ⟨g1, op, g2, g3⟩ := h
        refine ⟨?_, op, ?_, g3⟩
        · show (if b then OpLogin.required else OpLogin.notRequired) ≠ _
          cases b <;> nofun
        · show AMap.get (AMap.insert x.ops k' o) k = _
          rw [AMap.get_insert, if_neg hj]
          exact g2
  | opRun k' a i =>
    simp only [own, decide_true, Bool.true_and, decide_eq_false_iff_not] at h2
    exact h.only (run_only e k' a i x t) (Ne.symm h2)
  | digestKey key =>
    simp only [decide_eq_false_iff_not] at h1
    exact h.only (digestKey_only e key x t) h1
  | digestEncrypt i =>
    simp only [decide_eq_false_iff_not] at h1
    exact dual_other (fun c => h1 (.inl c)) (fun c => h1 (.inr c)) h e i
  | decryptDigest i =>
    simp only [decide_eq_false_iff_not] at h1
    exact dual_other (fun c => h1 (.inl c)) (fun c => h1 (.inr c)) h e i
  | signEncrypt i =>
    simp only [decide_eq_false_iff_not] at h1
    exact dual_other (fun c => h1 (.inl c)) (fun c => h1 (.inr c)) h e i
  | decryptVerify i =>
    simp only [decide_eq_false_iff_not] at h1
    exact dual_other (fun c => h1 (.inl c)) (fun c => h1 (.inr c)) h e i
  | cancel f =>
    simp only [decide_eq_false_iff_not, ne_eq, Classical.not_not] at h1
    exact cancel_bears h h1
  | generatePair m p a b => unfold opStep; simp only; split <;> exact h
  | derive m p key tm => unfold opStep; simp only; split <;> exact h
  | _ => exact h

theorem has_sessStep (h : Has k v x) (e : Env) (n : Nat) (c : SCall) (t : Token) : Has k v (sessStep C O e n c x t).2.1 := by
  rw [has_bears] at h ⊢
  exact ⟨sessStep_bears h.1 e n c t, sessStep_calm e n c x t h.2⟩

/-- Every session with the handle has the operation. -/
def Having (h : Nat) (k : OpKind) (v : Op) (s : St) : Prop :=
  ∀ i sl x, AMap.get s.slots i = some sl → AMap.get sl.sessions h = some x → Has k v x

/-- Any call that is not about the operation. -/
theorem having_step {s : St} {h : Nat} {e : Env} {c : Call} (hi : Inv s) (hb : Having h k v s) (h1 : meddles h k c = false) (h2 : own h k c = false)
    (h3 : ∀ j f, c = .openSession j f → (step M C O e s c).1 ≠ .handle h) : Having h k v (step M C O e s c).2 := by
  intro i sl' y hs hy
  have mv := step_sess hi hs hy
  generalize (step M C O e s c).1 = a at mv h3
  cases mv with
  | opened f hsm ho hse hl => exact absurd rfl (h3 _ _ rfl)
  | kept c a sl x hs0 hx hk0 hc hc2 hc3 =>
    obtain ⟨g1, g2⟩ := hb i sl x hs0 hx
    exact ⟨by rw [hk0.2.2]; exact g1, by rw [hk0.1]; exact g2⟩
  | loggedIn pin sl x hs0 hx ho hse hr hl hok => exact absurd hr (hb i sl x hs0 hx).1.2
  | sess sc sl x hg hyy =>
    obtain ⟨_, _, g1, g2⟩ := getSession_ok hg
    rw [hyy]
    exact has_sessStep (hb i sl x g1 g2) e h sc sl.token
  | op oc sl x hg hyy =>
    obtain ⟨_, _, g1, g2⟩ := getSession_ok hg
    rw [hyy]
    exact has_opStep (hb i sl x g1 g2) e h oc sl.token h1 h2

/-- A call of the operation. -/
theorem having_own {s : St} {h : Nat} {e : Env} {a : Act} {b : OpIn} (hm : Stateless M m) (hv : Plainly m v) (hk : manyMessages k = false) (hi : Inv s)
    (hb : Having h k v s) : Having h k (solo M e k a b v).2 (step M C O e s (.op h (.opRun k a b))).2 := by
  intro i sl' y hs hy
  have mv := step_sess hi hs hy
  generalize (step M C O e s (.op h (.opRun k a b))).1 = r at mv
  generalize hc : Call.op h (.opRun k a b) = c at mv
  cases mv with
  | opened => cases hc
  | kept c a sl z _ _ _ hc1 => exact absurd hc.symm (hc1 _)
  | loggedIn => cases hc
  | sess => cases hc
  | op oc sl x hg hyy =>
    injection hc with _ hc; subst hc
    obtain ⟨_, _, g1, g2⟩ := getSession_ok hg
    rw [hyy]
    exact (run_solo hm hv hk (hb i sl x g1 g2) e a b sl.token).2

/-- The answer of a call of the operation. -/
theorem own_answer {s : St} {h j : Nat} (hm : Stateless M m) (hv : Plainly m v) (hk : manyMessages k = false) (hi : Inv s) (hb : Having h k v s)
    (hs : AMap.get s.smap h = some j) (e : Env) (a : Act) (b : OpIn) : (step M C O e s (.op h (.opRun k a b))).1 = (solo M e k a b v).1 := by
  obtain ⟨sl, x, g, g1, g2⟩ := getSession_live hi hs
  unfold step
  simp only [g, opStep]
  exact (run_solo hm hv hk (hb j sl x g1 g2) e a b sl.token).1

/-- The operation after the calls of a trace. -/
def soloAll (M : Mechs) (h : Nat) (k : OpKind) (v : Op) (tr : Trace) : Op :=
  tr.foldl (fun v p => match p.2 with
    | .op h' (.opRun k' a b) => if h' = h ∧ k' = k then (solo M p.1 k a b v).2 else v
    | _ => v) v

theorem soloAll_other {h : Nat} {e : Env} {c : Call} {tr : Trace} (hc : own h k c = false) : soloAll M h k v ((e, c) :: tr) = soloAll M h k v tr := by
  unfold soloAll
  rw [List.foldl_cons]
  congr 1
  simp only
  split
  · rename_i h' k' a b
    rw [if_neg]
    rintro ⟨rfl, rfl⟩
    simp [own] at hc
  · rfl

theorem soloAll_own {h : Nat} {e : Env} {a : Act} {b : OpIn} {tr : Trace} :
    soloAll M h k v ((e, .op h (.opRun k a b)) :: tr) = soloAll M h k (solo M e k a b v).2 tr := by
  unfold soloAll
  rw [List.foldl_cons]
  simp only [and_self, if_true]

theorem own_iff {h : Nat} {c : Call} : own h k c = true ↔ ∃ a b, c = .op h (.opRun k a b) := by
  constructor
  · intro hc
    unfold own at hc
    split at hc
    · simp only [Bool.and_eq_true, decide_eq_true_eq] at hc
      obtain ⟨rfl, rfl⟩ := hc
      exact ⟨_, _, rfl⟩
    · cases hc
  · rintro ⟨a, b, rfl⟩
    simp [own]

/-- Any calls. -/
theorem having_run {h : Nat} (hm : Stateless M m) (hk : manyMessages k = false) (tr : Trace) {s : St} {v : Op} (hv : Plainly m v) (hi : Inv s) (hb : Having h k v s)
    (h1 : ∀ p ∈ tr, meddles h k p.2 = false) (h3 : ∀ p ∈ hist M C O s tr, ∀ j f, p.1 = .openSession j f → p.2 ≠ .handle h) :
    Having h k (soloAll M h k v tr) (run M C O s tr) ∧ Plainly m (soloAll M h k v tr) := by
  induction tr generalizing s v with
  | nil => exact ⟨hb, hv⟩
  | cons p tr ih =>
    obtain ⟨e, c⟩ := p
    have i1 := inv_step M (C := C) O e s c hi
    have t1 : ∀ p ∈ tr, meddles h k p.2 = false := fun p hp => h1 p (List.mem_cons_of_mem _ hp)
    have t3 : ∀ p ∈ hist M C O (step M C O e s c).2 tr, ∀ j f, p.1 = .openSession j f → p.2 ≠ .handle h :=
      fun p hp => h3 p (List.mem_cons_of_mem _ hp)
    cases hc : own h k c with
    | false =>
      rw [soloAll_other hc]
      exact ih hv i1 (having_step hi hb (h1 _ List.mem_cons_self) hc (h3 _ List.mem_cons_self)) t1 t3
    | true =>
      obtain ⟨a, b, rfl⟩ := own_iff.1 hc
      rw [soloAll_own]
      exact ih (plainly_solo hm hv e k a b) i1 (having_own hm hv hk hi hb) t1 t3

/-- Only the calls of the operation count. -/
theorem soloAll_filter (h : Nat) (k : OpKind) (tr : Trace) (v : Op) : soloAll M h k v (tr.filter fun p => own h k p.2) = soloAll M h k v tr := by
  induction tr generalizing v with
  | nil => rfl
  | cons p tr ih =>
    obtain ⟨e, c⟩ := p
    cases hc : own h k c with
    | false => rw [List.filter_cons_of_neg (by simp [hc]), soloAll_other hc]; exact ih v
    | true =>
      rw [List.filter_cons_of_pos (by simp [hc])]
      obtain ⟨a, b, rfl⟩ := own_iff.1 hc
      rw [soloAll_own, soloAll_own]
      exact ih _

end Kry
