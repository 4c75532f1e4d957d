import Verif.Spec.Operations
import Verif.Proofs.OpFrame

/-! # The notebook about operations agrees with the sessions -/

namespace Kry

open Spec

variable {M : Mechs} {C : Crypto} {O : Oracle}

/-- An operation of this kind is there and not finalized. -/
def Running (x : Session) (k : OpKind) : Prop := ∃ o, AMap.get x.ops k = some o ∧ o.fin = false

/-- The session agrees with the notebook. -/
structure Knows (g : Kind → Known) (x : Session) : Prop where
  yes : ∀ k, g (.op k) = .yes → Running x k
  no : ∀ k, g (.op k) = .no → ¬ Running x k
  search : g .search = .yes → x.search ≠ none
  idle : g .search = .no → x.search = none
  sure : g .search ≠ .maybe
  fresh : x.login = .notInit → x.ops = [] ∧ x.search = none

/-- What one operation call does to the operation it works on. -/
inductive Did (k : OpKind) (x : Session) (ends : Bool) : Out → Session → Prop where
  | refused (r : Rv) : Did k x ends (.err r) x
  | failed (r : Rv) (o' : Op) (hr : Running x k) : Did k x ends (.err r) (x.putOp k o')
  | sized (n : Nat) : Did k x ends (.size n) x
  | asked (n : Nat) (o' : Op) (hr : Running x k) (hf : o'.fin = false) : Did k x ends (.size n) (x.putOp k o')
  | done (a : Out) (o' : Op) (ha : a = .ok ∨ ∃ b, a = .bytes b) (hr : Running x k) (hf : o'.fin = ends) :
      Did k x ends a (x.putOp k o')

theorem getOp_running {x : Session} {k : OpKind} {o : Op} (h : x.getOp k = .ok o) :
    AMap.get x.ops k = some o ∧ o.fin = false ∧ x.login ≠ .notInit := by
  unfold Session.getOp Session.checkLogin at h
  cases hl : x.login <;> rw [hl] at h <;> simp only at h
  all_goals first | (cases h; done) | skip
  all_goals
    cases hg : AMap.get x.ops k with
    | none => rw [hg] at h; cases h
    | some o' =>
      rw [hg] at h
      simp only at h
      split at h
      · cases h
      · rename_i hf
        injection h with h; subst h
        exact ⟨rfl, by simpa using hf, nofun⟩

theorem runOp_ends (hM : Lawful M) {e : Env} {k : OpKind} {a : Act} {op op' : Op} {i : OpIn} {b : Bytes}
    (hk : manyMessages k = false) (ha : a = .oneShot ∨ a = .final) (h : runOp M e k a op i = (.ok b, op')) :
    op'.fin = true := by
  unfold runOp at h
  rcases hr : M.run e k a op i with ⟨r, o⟩
  rw [hr] at h
  injection h with h1 h2
  subst h1; subst h2
  exact hM.ends e k a op i b o hk ha hr

theorem runOp_goes (hM : Lawful M) {e : Env} {k : OpKind} {a : Act} {op op' : Op} {i : OpIn} {b : Bytes}
    (hk : manyMessages k = true ∨ a = .update) (h : runOp M e k a op i = (.ok b, op')) :
    op'.fin = op.fin := by
  unfold runOp at h
  rcases hr : M.run e k a op i with ⟨r, o⟩
  rw [hr] at h
  injection h with h1 h2
  subst h1; subst h2
  exact hM.goes e k a op i b o hk hr

theorem lenOp_asks (hM : Lawful M) {k : OpKind} {a : Act} {op op' : Op} {n m : Nat}
    (h : lenOp M k a op n = (.ok m, op')) : op'.fin = op.fin := by
  unfold lenOp at h
  rcases hr : M.len k a op n with ⟨r, o⟩
  rw [hr] at h
  injection h with h1 h2
  subst h1; subst h2
  exact hM.asks k a op n m o hr

theorem sign_did (hM : Lawful M) (e : Env) (a : Act) (ha : a = .oneShot ∨ a = .final) (i : OpIn) (x : Session)
    (t : Token) : Did .sign x true (fnSign M C e a i x t).1 (fnSign M C e a i x t).2.1 := by
  unfold fnSign
  cases hg : x.getOp .sign with
  | error r => exact .refused r
  | ok op =>
    obtain ⟨h1, h2, _⟩ := getOp_running hg
    simp only
    split
    · exact .refused _
    split
    · exact .sized _
    split
    · exact .refused _
    rcases hr : runOp M (e.sub 0) .sign a op i with ⟨r, op'⟩
    simp only
    cases r with
    | error r => exact .failed r op' ⟨op, h1, h2⟩
    | ok b =>
      simp only
      split
      · exact .failed _ op' ⟨op, h1, h2⟩
      · exact .done _ op' (.inr ⟨b, rfl⟩) ⟨op, h1, h2⟩ (runOp_ends hM rfl ha hr)

theorem verify_did (hM : Lawful M) (e : Env) (k : OpKind) (hk : manyMessages k = false) (a : Act)
    (ha : a = .oneShot ∨ a = .final) (i : OpIn) (x : Session) (t : Token) :
    Did k x true (fnVerify M C e k a i x t).1 (fnVerify M C e k a i x t).2.1 := by
  unfold fnVerify
  cases hg : x.getOp k with
  | error r => exact .refused r
  | ok op =>
    obtain ⟨h1, h2, _⟩ := getOp_running hg
    simp only
    split
    · exact .refused _
    rcases hr : runOp M (e.sub 0) k a op i with ⟨r, op'⟩
    simp only
    cases r with
    | error r => exact .failed r op' ⟨op, h1, h2⟩
    | ok b =>
      simp only
      cases (afterUse C (e.sub 1) op' t).1 with
      | error r => exact .failed _ op' ⟨op, h1, h2⟩
      | ok u => exact .done _ op' (.inl rfl) ⟨op, h1, h2⟩ (runOp_ends hM hk ha hr)

theorem feed_did (hM : Lawful M) (e : Env) (k : OpKind) (d : Bytes) (x : Session) :
    Did k x false (Out.of (fnFeed M e k d x).1) (fnFeed M e k d x).2 := by
  unfold fnFeed
  cases hg : x.getOp k with
  | error r => exact .refused r
  | ok op =>
    obtain ⟨h1, h2, _⟩ := getOp_running hg
    simp only
    generalize hq : ({ (default : OpIn) with data := d } : OpIn) = q
    rcases hr : runOp M e k .update op q with ⟨r, op'⟩
    simp only
    cases r with
    | error r => exact .failed r op' ⟨op, h1, h2⟩
    | ok b => exact .done _ op' (.inl rfl) ⟨op, h1, h2⟩ ((runOp_goes hM (.inr rfl) hr).trans h2)

theorem digest_did (hM : Lawful M) (e : Env) (a : Act) (ha : a = .oneShot ∨ a = .final) (i : OpIn) (x : Session) :
    Did .digest x true (fnDigest M e a i x).1 (fnDigest M e a i x).2 := by
  unfold fnDigest
  cases hg : x.getOp .digest with
  | error r => exact .refused r
  | ok op =>
    obtain ⟨h1, h2, _⟩ := getOp_running hg
    simp only
    split
    · exact .refused _
    split
    · exact .sized _
    split
    · exact .refused _
    rcases hr : runOp M e .digest a op i with ⟨r, op'⟩
    simp only
    cases r with
    | error r => exact .failed r op' ⟨op, h1, h2⟩
    | ok b => exact .done _ op' (.inr ⟨b, rfl⟩) ⟨op, h1, h2⟩ (runOp_ends hM rfl ha hr)

theorem crypt_did (hM : Lawful M) (e : Env) (k : OpKind) (hk : manyMessages k = false) (a : Act)
    (ha : a = .oneShot ∨ a = .update ∨ a = .final) (i : OpIn) (x : Session) :
    Did k x (ending k a) (fnCrypt M e k a i x).1 (fnCrypt M e k a i x).2 := by
  unfold fnCrypt
  cases hg : x.getOp k with
  | error r => exact .refused r
  | ok op =>
    obtain ⟨h1, h2, _⟩ := getOp_running hg
    simp only
    split
    · rcases hr : lenOp M k a op i.data.length with ⟨r, op'⟩
      simp only
      cases r with
      | error r => exact .failed r op' ⟨op, h1, h2⟩
      | ok n => exact .asked n op' ⟨op, h1, h2⟩ ((lenOp_asks hM hr).trans h2)
    · rcases hr : runOp M e k a op i with ⟨r, op'⟩
      simp only
      cases r with
      | error r => exact .failed r op' ⟨op, h1, h2⟩
      | ok b =>
        refine .done _ op' (.inr ⟨b, rfl⟩) ⟨op, h1, h2⟩ ?_
        rcases ha with rfl | rfl | rfl
        · rw [runOp_ends hM hk (.inl rfl) hr]; unfold ending; rw [hk]; rfl
        · rw [runOp_goes hM (.inr rfl) hr, h2]; rfl
        · rw [runOp_ends hM hk (.inr rfl) hr]; unfold ending; rw [hk]; rfl

theorem message_did (hM : Lawful M) (e : Env) (k : OpKind) (hk : manyMessages k = true) (a : Act) (i : OpIn)
    (x : Session) (t : Token) :
    Did k x (ending k a) (fnMessage M e k a i x t).1 (fnMessage M e k a i x t).2 := by
  have hf : ∀ {op : Op} {a : Act} {r : Res Bytes} {op' : Op}, op.fin = false → runOp M e k a op i = (r, op') →
      ∀ b, r = .ok b → op'.fin = false := by
    intro op a r op' h2 hr b hb
    subst hb
    exact (runOp_goes hM (.inl hk) hr).trans h2
  have hen : ∀ a, a ≠ .finish → ending k a = false := by
    intro a ha
    unfold ending
    cases a <;> simp_all
  unfold fnMessage
  cases a with
  | oneShot =>
    simp only
    split
    · exact .refused _
    cases hg : x.getOp k with
    | error r => exact .refused r
    | ok op =>
      obtain ⟨h1, h2, _⟩ := getOp_running hg
      simp only
      split
      · exact .refused _
      split
      · rcases hr : lenOp M k .oneShot op i.data.length with ⟨r, op'⟩
        simp only
        cases r with
        | error r => exact .failed r op' ⟨op, h1, h2⟩
        | ok n => exact .asked n op' ⟨op, h1, h2⟩ ((lenOp_asks hM hr).trans h2)
      · rcases hr : runOp M e k .oneShot op i with ⟨r, op'⟩
        simp only
        cases r with
        | error r => exact .failed r op' ⟨op, h1, h2⟩
        | ok b =>
          exact .done _ _ (.inr ⟨b, rfl⟩) ⟨op, h1, h2⟩ ((hf h2 hr b rfl).trans (hen _ (by decide)).symm)
  | begin =>
    simp only
    split
    · exact .refused _
    cases hg : x.getOp k with
    | error r => exact .refused r
    | ok op =>
      obtain ⟨h1, h2, _⟩ := getOp_running hg
      simp only
      split
      · exact .refused _
      split
      · exact .refused _
      split
      · exact .refused _
      rcases hr : runOp M e k .begin op i with ⟨r, op'⟩
      simp only
      cases r with
      | error r => exact .failed r op' ⟨op, h1, h2⟩
      | ok b =>
        exact .done _ _ (.inl rfl) ⟨op, h1, h2⟩ ((hf h2 hr b rfl).trans (hen _ (by decide)).symm)
  | next =>
    simp only
    split
    · exact .refused _
    cases hg : x.getOp k with
    | error r => exact .refused r
    | ok op =>
      obtain ⟨h1, h2, _⟩ := getOp_running hg
      simp only
      split
      · exact .refused _
      split
      · rcases hr : lenOp M k .next op i.data.length with ⟨r, op'⟩
        simp only
        cases r with
        | error r => exact .failed r op' ⟨op, h1, h2⟩
        | ok n => exact .asked n op' ⟨op, h1, h2⟩ ((lenOp_asks hM hr).trans h2)
      · rcases hr : runOp M e k .next op i with ⟨r, op'⟩
        simp only
        cases r with
        | error r => exact .failed r _ ⟨op, h1, h2⟩
        | ok b =>
          exact .done _ _ (.inr ⟨b, rfl⟩) ⟨op, h1, h2⟩ ((hf h2 hr b rfl).trans (hen _ (by decide)).symm)
  | last =>
    simp only
    split
    · exact .refused _
    cases hg : x.getOp k with
    | error r => exact .refused r
    | ok op =>
      obtain ⟨h1, h2, _⟩ := getOp_running hg
      simp only
      split
      · exact .refused _
      split
      · rcases hr : lenOp M k .last op i.data.length with ⟨r, op'⟩
        simp only
        cases r with
        | error r => exact .failed r op' ⟨op, h1, h2⟩
        | ok n => exact .asked n op' ⟨op, h1, h2⟩ ((lenOp_asks hM hr).trans h2)
      · rcases hr : runOp M e k .last op i with ⟨r, op'⟩
        simp only
        cases r with
        | error r => exact .failed r _ ⟨op, h1, h2⟩
        | ok b =>
          exact .done _ _ (.inr ⟨b, rfl⟩) ⟨op, h1, h2⟩ ((hf h2 hr b rfl).trans (hen _ (by decide)).symm)
  | finish =>
    simp only
    cases hg : x.getOp k with
    | error r => exact .refused r
    | ok op =>
      obtain ⟨h1, h2, _⟩ := getOp_running hg
      simp only
      split
      · exact .refused _
      · refine .done _ _ (.inl rfl) ⟨op, h1, h2⟩ ?_
        unfold ending; rw [hk]
  | update => exact .refused _
  | final => exact .refused _

/-- A call that fails on an operation still leaves it alone if it is C_MessageXxxFinal. -/
theorem finish_kept (e : Env) (k : OpKind) (i : OpIn) (x : Session) (t : Token) (r : Rv)
    (h : (fnOpRun M C e k .finish i x t).1 = .err r) : (fnOpRun M C e k .finish i x t).2.1 = x := by
  revert h
  unfold fnOpRun
  cases k <;> simp only <;> try (intro _; trivial)
  all_goals
    unfold fnMessage
    simp only
    split
    · intro _; rfl
    · split
      · intro _; rfl
      · intro h; cases h

theorem opRun_did (hM : Lawful M) (e : Env) (k : OpKind) (a : Act) (i : OpIn) (x : Session) (t : Token) :
    Did k x (ending k a) (fnOpRun M C e k a i x t).1 (fnOpRun M C e k a i x t).2.1 := by
  unfold fnOpRun
  cases k with
  | msgEnc => exact message_did hM e .msgEnc rfl a i x t
  | msgDec => exact message_did hM e .msgDec rfl a i x t
  | enc =>
    cases a <;> simp only <;> first | exact .refused _ | skip
    · exact crypt_did hM e .enc rfl .oneShot (.inl rfl) i x
    · exact crypt_did hM e .enc rfl .update (.inr (.inl rfl)) i x
    · exact crypt_did hM e .enc rfl .final (.inr (.inr rfl)) i x
  | dec =>
    cases a <;> simp only <;> first | exact .refused _ | skip
    · exact crypt_did hM e .dec rfl .oneShot (.inl rfl) i x
    · exact crypt_did hM e .dec rfl .update (.inr (.inl rfl)) i x
    · exact crypt_did hM e .dec rfl .final (.inr (.inr rfl)) i x
  | digest =>
    cases a <;> simp only <;> first | exact .refused _ | skip
    · exact digest_did hM e .oneShot (.inl rfl) i x
    · exact feed_did hM e .digest i.data x
    · exact digest_did hM e .final (.inr rfl) i x
  | sign =>
    cases a <;> simp only <;> first | exact .refused _ | skip
    · exact sign_did hM e .oneShot (.inl rfl) i x t
    · exact feed_did hM e .sign i.data x
    · exact sign_did hM e .final (.inr rfl) i x t
  | verify =>
    cases a <;> simp only <;> first | exact .refused _ | skip
    · exact verify_did hM e .verify rfl .oneShot (.inl rfl) i x t
    · exact feed_did hM e .verify i.data x
    · exact verify_did hM e .verify rfl .final (.inr rfl) i x t
  | verifySig =>
    cases a <;> simp only <;> first | exact .refused _ | skip
    · exact verify_did hM e .verifySig rfl .oneShot (.inl rfl) i x t
    · exact feed_did hM e .verifySig i.data x
    · exact verify_did hM e .verifySig rfl .final (.inr rfl) i x t

/-- The notebook line after one call on an operation. -/
def after1 (k : OpKind) (en : Bool) (a : Out) (g : Kind → Known) (j : Kind) : Known :=
  if j = .op k then
    match a with
    | .err _ => (g j).failed
    | .size _ => g j
    | _ => if en then .no else g j
  else g j

theorem failed_yes {v : Known} (h : v.failed = .yes) : False := by cases v <;> cases h

theorem failed_no {v : Known} (h : v.failed = .no) : v = .no := by cases v <;> first | rfl | cases h

/-- Knowing less. -/
theorem Knows.less {g g' : Kind → Known} {x : Session} (h : Knows g x)
    (hk : ∀ k, g' (.op k) = g (.op k) ∨ g' (.op k) = (g (.op k)).failed) (hs : g' .search = g .search) :
    Knows g' x where
  yes := by
    intro k hy
    rcases hk k with e | e
    · exact h.yes k (e ▸ hy)
    · rw [e] at hy; exact (failed_yes hy).elim
  no := by
    intro k hy
    rcases hk k with e | e
    · exact h.no k (e ▸ hy)
    · rw [e] at hy; exact h.no k (failed_no hy)
  search := by rw [hs]; exact h.search
  idle := by rw [hs]; exact h.idle
  sure := by rw [hs]; exact h.sure
  fresh := h.fresh

theorem running_putOp {x : Session} {k k' : OpKind} {o : Op} :
    Running (x.putOp k o) k' ↔ if k = k' then o.fin = false else Running x k' := by
  unfold Running Session.putOp
  simp only [AMap.get_insert]
  by_cases e : k = k'
  · subst e
    simp
  · simp only [if_neg e]

theorem Knows.put {g g' : Kind → Known} {x : Session} {k : OpKind} {o : Op} (h : Knows g x) (hr : Running x k)
    (hs : g' .search = g .search) (hk : ∀ k', k ≠ k' → g' (.op k') = g (.op k'))
    (hy : g' (.op k) = .yes → o.fin = false) (hn : g' (.op k) = .no → o.fin = true) :
    Knows g' (x.putOp k o) where
  yes := by
    intro k' h'
    rw [running_putOp]
    by_cases e : k = k'
    · subst e; rw [if_pos rfl]; exact hy h'
    · rw [if_neg e]; exact h.yes k' (hk k' e ▸ h')
  no := by
    intro k' h'
    rw [running_putOp]
    by_cases e : k = k'
    · subst e; rw [if_pos rfl, hn h']; exact nofun
    · rw [if_neg e]; exact h.no k' (hk k' e ▸ h')
  search := by rw [hs]; exact h.search
  idle := by rw [hs]; exact h.idle
  sure := by rw [hs]; exact h.sure
  fresh := by
    intro hl
    obtain ⟨o', h1, _⟩ := hr
    rw [(h.fresh hl).1] at h1
    cases h1

theorem did_knows {k : OpKind} {x y : Session} {en : Bool} {a : Out} {g : Kind → Known} (d : Did k x en a y)
    (h : Knows g x) : Knows (after1 k en a g) y := by
  have ne : ∀ (a : Out) (k' : OpKind), k ≠ k' → after1 k en a g (.op k') = g (.op k') := by
    intro a k' e
    unfold after1
    rw [if_neg]
    intro he
    injection he with he
    exact e he.symm
  have se : ∀ (a : Out), after1 k en a g .search = g .search := by
    intro a
    unfold after1
    rw [if_neg nofun]
  have at' : ∀ (a : Out), after1 k en a g (.op k) = (match a with
      | .err _ => (g (.op k)).failed
      | .size _ => g (.op k)
      | _ => if en then .no else g (.op k)) := by
    intro a
    unfold after1
    rw [if_pos rfl]
  cases d with
  | refused r =>
    refine h.less ?_ (se _)
    intro k'
    by_cases e : k = k'
    · subst e; exact .inr (at' _)
    · exact .inl (ne _ k' e)
  | failed r o' hr =>
    refine h.put hr (se _) (ne _) ?_ ?_
    · intro hy; rw [at'] at hy; exact (failed_yes hy).elim
    · intro hy; rw [at'] at hy; exact absurd hr (h.no k (failed_no hy))
  | sized n =>
    refine h.less ?_ (se _)
    intro k'
    by_cases e : k = k'
    · subst e; exact .inl (at' _)
    · exact .inl (ne _ k' e)
  | asked n o' hr hf =>
    refine h.put hr (se _) (ne _) (fun _ => hf) ?_
    intro hy; rw [at'] at hy; exact absurd hr (h.no k hy)
  | done a o' ha hr hf =>
    refine h.put hr (se _) (ne _) ?_ ?_
    · intro hy
      rw [at'] at hy
      rw [hf]
      cases en with
      | false => rfl
      | true => rcases ha with rfl | ⟨b, rfl⟩ <;> cases hy
    · intro hy
      rw [at'] at hy
      rw [hf]
      cases en with
      | true => rfl
      | false =>
        exfalso
        rcases ha with rfl | ⟨b, rfl⟩
        · exact h.no k hy hr
        · exact h.no k hy hr

theorem digestKey_did (hM : Lawful M) (e : Env) (key : Nat) (x : Session) (t : Token) :
    Did .digest x false (Out.of (fnDigestKey M C e key x t).1) (fnDigestKey M C e key x t).2 := by
  unfold fnDigestKey
  repeat' split
  all_goals first
    | exact .refused _
    | exact feed_did hM _ _ _ _

/-- The notebook line after one call on two operations. -/
def after2 (k1 k2 : OpKind) (a : Out) (g : Kind → Known) (j : Kind) : Known :=
  match a with
  | .err _ => if j = .op k1 ∨ j = .op k2 then (g j).failed else g j
  | _ => g j

/-- The answer of a call on two operations. -/
theorem dual_knows (hM : Lawful M) (e : Env) (k1 k2 : OpKind) (hk : manyMessages k1 = false) (i : OpIn)
    (x : Session) (g : Kind → Known) (h : Knows g x) :
    Knows (after2 k1 k2 (fnDual M e k1 k2 i x).1 g) (fnDual M e k1 k2 i x).2 := by
  have less : ∀ x, Knows g x → Knows (fun j => if j = .op k1 ∨ j = .op k2 then (g j).failed else g j) x := by
    intro x h
    refine h.less ?_ ?_
    · intro k'
      by_cases e : Kind.op k' = .op k1 ∨ Kind.op k' = .op k2
      · exact .inr (if_pos e)
      · exact .inl (if_neg e)
    · exact if_neg (by rintro (h | h) <;> cases h)
  unfold fnDual
  cases x.checkOp k2 with
  | error r => exact less x h
  | ok u =>
    simp only
    have d := crypt_did hM (e.sub 0) k1 hk .update (.inr (.inl rfl)) i x
    rcases hc : fnCrypt M (e.sub 0) k1 .update i x with ⟨r, x1⟩
    rw [hc] at d
    have h1 := did_knows d h
    have h2 : (∀ r', r ≠ .err r') → Knows g x1 := by
      intro hr
      have e3 : after1 k1 (ending k1 .update) r g = g := by
        funext j
        unfold after1
        by_cases e : j = .op k1
        · rw [if_pos e]
          cases r <;> first | rfl | exact (hr _ rfl).elim
        · rw [if_neg e]
      rw [e3] at h1; exact h1
    cases r with
    | err r' =>
      simp only
      refine Knows.less h1 ?_ ?_
      · intro k'
        show (if Kind.op k' = .op k1 ∨ Kind.op k' = .op k2 then (g (.op k')).failed else g (.op k')) =
            (if Kind.op k' = .op k1 then (g (.op k')).failed else g (.op k')) ∨
          (if Kind.op k' = .op k1 ∨ Kind.op k' = .op k2 then (g (.op k')).failed else g (.op k')) =
            (if Kind.op k' = .op k1 then (g (.op k')).failed else g (.op k')).failed
        by_cases e1 : Kind.op k' = .op k1
        · left; rw [if_pos (.inl e1), if_pos e1]
        · by_cases e2 : Kind.op k' = .op k2
          · right; rw [if_pos (.inr e2), if_neg e1]
          · left; rw [if_neg (by rintro (h | h) <;> contradiction), if_neg e1]
      · show (if Kind.search = .op k1 ∨ Kind.search = .op k2 then (g .search).failed else g .search) =
            (if Kind.search = .op k1 then (g .search).failed else g .search)
        rw [if_neg (by rintro (h | h) <;> cases h), if_neg nofun]
    | bytes b =>
      have hx1 := h2 (by intro r'; exact nofun)
      simp only
      have d2 := feed_did hM (e.sub 1) k2 (if k1 = .enc then i.data else b) x1
      rcases hf : fnFeed M (e.sub 1) k2 (if k1 = .enc then i.data else b) x1 with ⟨r', x2⟩
      rw [hf] at d2
      have h3 := did_knows d2 hx1
      cases r' with
      | error r' =>
        simp only
        refine Knows.less h3 ?_ ?_
        · intro k'
          show (if Kind.op k' = .op k1 ∨ Kind.op k' = .op k2 then (g (.op k')).failed else g (.op k')) =
            (if Kind.op k' = .op k2 then (g (.op k')).failed else g (.op k')) ∨
          (if Kind.op k' = .op k1 ∨ Kind.op k' = .op k2 then (g (.op k')).failed else g (.op k')) =
            (if Kind.op k' = .op k2 then (g (.op k')).failed else g (.op k')).failed
          by_cases e2 : Kind.op k' = .op k2
          · left; rw [if_pos (.inr e2), if_pos e2]
          · by_cases e1 : Kind.op k' = .op k1
            · right; rw [if_pos (.inl e1), if_neg e2]
            · left; rw [if_neg (by rintro (h | h) <;> contradiction), if_neg e2]
        · show (if Kind.search = .op k1 ∨ Kind.search = .op k2 then (g .search).failed else g .search) =
            (if Kind.search = .op k2 then (g .search).failed else g .search)
          rw [if_neg (by rintro (h | h) <;> cases h), if_neg nofun]
      | ok u =>
        simp only
        have e3 : after1 k2 false (Out.of (.ok u)) g = g := by
          funext j
          unfold after1
          by_cases e : j = .op k2
          · rw [if_pos e]; rfl
          · rw [if_neg e]
        rw [e3] at h3
        exact h3
    | ok => exact h2 (by intro r'; exact nofun)
    | handle n => exact h2 (by intro r'; exact nofun)
    | handles l => exact h2 (by intro r'; exact nofun)
    | size n => exact h2 (by intro r'; exact nofun)
    | attrs r l => exact h2 (by intro r'; exact nofun)
    | sessInfo a b c => exact h2 (by intro r'; exact nofun)
    | tokInfo i => exact h2 (by intro r'; exact nofun)
    | handleBytes n b => exact h2 (by intro r'; exact nofun)

theorem cancel_running {x : Session} {k k' : OpKind} :
    Running (x.cancelOp k) k' ↔ k ≠ k' ∧ Running x k' := by
  unfold Running Session.cancelOp
  simp only [AMap.get_erase]
  by_cases e : k = k'
  · simp [e]
  · simp [e]

theorem set_running {x : Session} {k k' : OpKind} {o : Op} {b : Bool} :
    Running (x.setOp k o b) k' ↔ if k = k' then o.fin = false else Running x k' := by
  unfold Running Session.setOp
  simp only [AMap.get_insert]
  by_cases e : k = k'
  · subst e
    simp
  · simp only [if_neg e]

theorem cancelIf_running {x : Session} {f f' : Nat} {k k' : OpKind} :
    Running (x.cancelIf f f' k) k' ↔ ¬ (f &&& f' ≠ 0 ∧ k = k') ∧ Running x k' := by
  unfold Session.cancelIf
  split
  · rename_i h
    rw [cancel_running]
    simp [h]
  · rename_i h
    simp [h]

theorem cancelSearch_running {x : Session} {f : Nat} {k : OpKind} :
    Running (x.cancelSearch f) k ↔ Running x k := by
  unfold Session.cancelSearch
  split <;> exact Iff.rfl

theorem cancelIf_other {x : Session} {f f' : Nat} {k : OpKind} :
    (x.cancelIf f f' k).login = x.login ∧ (x.cancelIf f f' k).search = x.search ∧
      (x.ops = [] → (x.cancelIf f f' k).ops = []) := by
  unfold Session.cancelIf
  split
  · refine ⟨rfl, rfl, ?_⟩
    intro h
    show AMap.erase x.ops k = []
    rw [h]; rfl
  · exact ⟨rfl, rfl, fun h => h⟩

theorem cancelSearch_other {x : Session} {f : Nat} :
    (x.cancelSearch f).login = x.login ∧ (x.cancelSearch f).ops = x.ops ∧
      (x.cancelSearch f).search = if f &&& CKF_FIND_OBJECTS ≠ 0 then none else x.search := by
  unfold Session.cancelSearch
  split <;> exact ⟨rfl, rfl, rfl⟩

theorem fnCancel_snd (f : Nat) (x : Session) : (fnCancel f x).2 = x.cancelAll f := by
  unfold fnCancel
  split <;> rfl

/-- The effect of C_SessionCancel. -/
theorem cancel_knows (f : Nat) (x : Session) (g : Kind → Known) (h : Knows g x) :
    Knows (fun j => if f &&& cancelFlag j ≠ 0 then .no else g j) (fnCancel f x).2 := by
  rw [fnCancel_snd]
  have hs : (x.cancelAll f).search = if f &&& CKF_FIND_OBJECTS ≠ 0 then none else x.search := by
    unfold Session.cancelAll
    simp only [cancelIf_other.2.1, cancelSearch_other.2.2]
  have hl : (x.cancelAll f).login = x.login := by
    unfold Session.cancelAll
    simp only [cancelIf_other.1, cancelSearch_other.1]
  have hr : ∀ k, Running (x.cancelAll f) k ↔ ¬ (f &&& cancelFlag (.op k) ≠ 0) ∧ Running x k := by
    intro k
    unfold Session.cancelAll
    simp only [cancelIf_running, cancelSearch_running]
    cases k <;> simp [cancelFlag]
  have hops : x.ops = [] → (x.cancelAll f).ops = [] := by
    intro h0
    unfold Session.cancelAll
    simp only
    iterate 5 apply cancelIf_other.2.2
    rw [cancelSearch_other.2.1]
    iterate 2 apply cancelIf_other.2.2
    exact h0
  refine ⟨?_, ?_, ?_, ?_, ?_, ?_⟩
  · intro k hy
    split at hy
    · cases hy
    · rename_i hc
      exact (hr k).2 ⟨hc, h.yes k hy⟩
  · intro k hy hrun
    obtain ⟨hc, hx⟩ := (hr k).1 hrun
    rw [if_neg hc] at hy
    exact h.no k hy hx
  · intro hy
    split at hy
    · cases hy
    · rename_i hc
      have hc' : ¬ (f &&& CKF_FIND_OBJECTS ≠ 0) := hc
      rw [hs, if_neg hc']; exact h.search hy
  · intro hy
    rw [hs]
    split
    · rfl
    · rename_i hc
      have hc' : ¬ (f &&& cancelFlag .search ≠ 0) := hc
      rw [if_neg hc'] at hy
      exact h.idle hy
  · split
    · exact nofun
    · exact h.sure
  · intro hn
    rw [hl] at hn
    obtain ⟨h1, h2⟩ := h.fresh hn
    refine ⟨hops h1, ?_⟩
    rw [hs, h2]
    split <;> rfl

theorem initKey_cases (e : Env) (k : OpKind) (m : Nat) (p : Bytes) (key : Nat) (sig : Bytes) (x : Session)
    (t : Token) : (∃ r, fnInitKey M C e k m p key sig x t = (.error r, x)) ∨
      ∃ o b, fnInitKey M C e k m p key sig x t = (.ok (), x.setOp k o b) ∧ o.fin = false := by
  unfold fnInitKey
  repeat' split
  all_goals first
    | exact .inl ⟨_, rfl⟩
    | (rename_i h
       refine .inr ⟨_, _, rfl, ?_⟩
       unfold newOp at h
       simp only at h
       repeat' split at h
       all_goals first | (cases h; done) | (injection h with h; subst h; rfl))

theorem initDigest_cases (e : Env) (m : Nat) (p : Bytes) (x : Session) (t : Token) :
    (∃ r, fnInitDigest M e m p x t = (.error r, x)) ∨
      ∃ o, fnInitDigest M e m p x t = (.ok (), x.setOp .digest o false) ∧ o.fin = false := by
  unfold fnInitDigest
  repeat' split
  all_goals first
    | exact .inl ⟨_, rfl⟩
    | (rename_i h
       refine .inr ⟨_, rfl, ?_⟩
       unfold newOp at h
       simp only at h
       repeat' split at h
       all_goals first | (cases h; done) | (injection h with h; subst h; rfl))

theorem set_knows {g : Kind → Known} {x : Session} {k : OpKind} {o : Op} {b : Bool} (h : Knows g x)
    (hf : o.fin = false) : Knows (fun j => if j = .op k then .yes else g j) (x.setOp k o b) := by
  have ne : ∀ k', k ≠ k' → ¬ Kind.op k' = .op k := by
    intro k' hk he; injection he with he; exact hk he.symm
  refine ⟨?_, ?_, h.search, h.idle, h.sure, ?_⟩
  · intro k' hy
    rw [set_running]
    by_cases e : k = k'
    · rw [if_pos e]; exact hf
    · rw [if_neg e]
      simp only [if_neg (ne k' e)] at hy
      exact h.yes k' hy
  · intro k' hy
    rw [set_running]
    by_cases e : k = k'
    · subst e; simp at hy
    · rw [if_neg e]
      simp only [if_neg (ne k' e)] at hy
      exact h.no k' hy
  · intro hn
    unfold Session.setOp at hn
    simp only at hn
    split at hn <;> cases hn

theorem opStep_knows (hM : Lawful M) (e : Env) (h : Nat) (c : OCall) (x : Session) (t : Token)
    (g : Kind → Known) (hk : Knows g x) :
    Knows (seeOp g c (opStep M C e h c x t).1) (opStep M C e h c x t).2.1 := by
  have same : ∀ (a : Out), worksWith c = [] → (∀ k m key sig, c ≠ .opInit k m key sig) →
      (∀ f, c ≠ .cancel f) → Knows (seeOp g c a) x := by
    intro a h1 h2 h3
    have : seeOp g c a = g := by
      funext j
      unfold seeOp
      split
      · exact (h2 _ _ _ _ rfl).elim
      · exact (h2 _ _ _ _ rfl).elim
      · exact (h3 _ rfl).elim
      · cases h1
      · rfl
      · cases h1
      · rw [h1]; simp
      · rfl
    rw [this]; exact hk
  cases c with
  | opInit k m key sig =>
    cases m with
    | none =>
      unfold opStep
      refine ⟨?_, ?_, hk.search, hk.idle, hk.sure, ?_⟩
      · intro k' hy
        simp only [seeOp] at hy
        split at hy
        · cases hy
        · rename_i hn
          refine cancel_running.2 ⟨?_, hk.yes k' hy⟩
          intro he; exact hn (by rw [he])
      · intro k' hy hr
        obtain ⟨h1, h2⟩ := cancel_running.1 hr
        simp only [seeOp] at hy
        rw [if_neg (by intro he; injection he with he; exact h1 he.symm)] at hy
        exact hk.no k' hy h2
      · intro hn
        obtain ⟨h1, h2⟩ := hk.fresh hn
        refine ⟨?_, h2⟩
        show AMap.erase x.ops k = []
        rw [h1]; rfl
    | some mp =>
      obtain ⟨m, p⟩ := mp
      unfold opStep
      simp only
      have bad : ∀ r, Knows (seeOp g (.opInit k (some (m, p)) key sig) (Out.of (.error r))) x := by
        intro r
        have : seeOp g (.opInit k (some (m, p)) key sig) (Out.of (.error r)) = g := by
          funext j
          simp [seeOp, Out.of, worksWith]
        rw [this]; exact hk
      have good : ∀ o b, o.fin = false →
          Knows (seeOp g (.opInit k (some (m, p)) key sig) (Out.of (.ok ()))) (x.setOp k o b) := by
        intro o b hf
        exact set_knows hk hf
      by_cases hd : k = .digest
      · subst hd
        simp only [if_pos]
        rcases initDigest_cases (M := M) e m p x t with ⟨r, hr⟩ | ⟨o, hr, hf⟩
        · rw [hr]; exact bad r
        · rw [hr]; exact good o false hf
      · simp only [if_neg hd]
        rcases initKey_cases (M := M) (C := C) e k m p key sig x t with ⟨r, hr⟩ | ⟨o, b, hr, hf⟩
        · rw [hr]; exact bad r
        · rw [hr]; exact good o b hf
  | opRun k a i =>
    show Knows (seeOp g (.opRun k a i) (fnOpRun M C e k a i x t).1) (fnOpRun M C e k a i x t).2.1
    by_cases hfin : a = .finish ∧ ∃ r, (fnOpRun M C e k a i x t).1 = .err r
    · obtain ⟨rfl, r, hr⟩ := hfin
      rw [finish_kept e k i x t r hr, hr]
      have : seeOp g (.opRun k .finish i) (.err r) = g := by
        funext j
        simp [seeOp]
      rw [this]; exact hk
    · have hd := did_knows (opRun_did (C := C) hM e k a i x t) hk
      generalize fnOpRun M C e k a i x t = p at hd hfin ⊢
      obtain ⟨out, y, t'⟩ := p
      have : seeOp g (.opRun k a i) out = after1 k (ending k a) out g := by
        funext j
        unfold after1
        by_cases hj : j = .op k
        · rw [if_pos hj]
          cases out with
          | err r =>
            have : a ≠ .finish := fun ha => hfin ⟨ha, r, rfl⟩
            simp [seeOp, hj, this]
          | _ => simp [seeOp, hj]
        · rw [if_neg hj]
          cases out <;> simp [seeOp, hj]
      rw [this]
      exact hd
  | digestKey key =>
    unfold opStep
    simp only
    have hd := did_knows (digestKey_did (C := C) hM e key x t) hk
    generalize fnDigestKey M C e key x t = p at hd ⊢
    obtain ⟨r, y⟩ := p
    cases r with
    | error r =>
      refine Knows.less hd ?_ ?_
      · intro k'
        left
        unfold after1 seeOp
        simp [worksWith, Out.of]
      · unfold after1 seeOp
        simp [worksWith, Out.of]
    | ok u =>
      refine Knows.less hd ?_ ?_
      · intro k'
        left
        unfold after1 seeOp
        simp [Out.of]
      · unfold after1 seeOp
        simp [Out.of]
  | digestEncrypt i =>
    unfold opStep
    simp only
    have hd := dual_knows hM e .enc .digest rfl i x g hk
    generalize fnDual M e .enc .digest i x = p at hd ⊢
    obtain ⟨a, y⟩ := p
    have : seeOp g (.digestEncrypt i) a = after2 .enc .digest a g := by
      funext j
      cases a <;> simp [seeOp, worksWith, after2]
    simp only
    rw [this]; exact hd
  | decryptDigest i =>
    unfold opStep
    simp only
    have hd := dual_knows hM e .dec .digest rfl i x g hk
    generalize fnDual M e .dec .digest i x = p at hd ⊢
    obtain ⟨a, y⟩ := p
    have : seeOp g (.decryptDigest i) a = after2 .dec .digest a g := by
      funext j
      cases a <;> simp [seeOp, worksWith, after2]
    simp only
    rw [this]; exact hd
  | signEncrypt i =>
    unfold opStep
    simp only
    have hd := dual_knows hM e .enc .sign rfl i x g hk
    generalize fnDual M e .enc .sign i x = p at hd ⊢
    obtain ⟨a, y⟩ := p
    have : seeOp g (.signEncrypt i) a = after2 .enc .sign a g := by
      funext j
      cases a <;> simp [seeOp, worksWith, after2]
    simp only
    rw [this]; exact hd
  | decryptVerify i =>
    unfold opStep
    simp only
    have hd := dual_knows hM e .dec .verify rfl i x g hk
    generalize fnDual M e .dec .verify i x = p at hd ⊢
    obtain ⟨a, y⟩ := p
    have : seeOp g (.decryptVerify i) a = after2 .dec .verify a g := by
      funext j
      cases a <;> simp [seeOp, worksWith, after2]
    simp only
    rw [this]; exact hd
  | cancel f =>
    unfold opStep
    simp only
    have hd := cancel_knows f x g hk
    generalize fnCancel f x = p at hd ⊢
    obtain ⟨a, y⟩ := p
    have : seeOp g (.cancel f) a = fun j => if f &&& cancelFlag j ≠ 0 then .no else g j := by
      funext j
      cases a <;> simp [seeOp]
    simp only
    rw [this]; exact hd
  | generateKey m p tm => exact same _ rfl (fun _ _ _ _ h => nomatch h) (fun _ h => nomatch h)
  | generatePair m p pub priv =>
    have : (opStep M C e h (.generatePair m p pub priv) x t).2.1 = x := by
      unfold opStep
      simp only
      split <;> rfl
    rw [this]
    exact same _ rfl (fun _ _ _ _ h => nomatch h) (fun _ h => nomatch h)
  | wrap m p w k out => exact same _ rfl (fun _ _ _ _ h => nomatch h) (fun _ h => nomatch h)
  | unwrap m p key data tm => exact same _ rfl (fun _ _ _ _ h => nomatch h) (fun _ h => nomatch h)
  | derive m p key tm =>
    have : (opStep M C e h (.derive m p key tm) x t).2.1 = x := by
      unfold opStep
      simp only
      split <;> rfl
    rw [this]
    exact same _ rfl (fun _ _ _ _ h => nomatch h) (fun _ h => nomatch h)
  | encapsulate m key tm out => exact same _ rfl (fun _ _ _ _ h => nomatch h) (fun _ h => nomatch h)
  | decapsulate m key data tm => exact same _ rfl (fun _ _ _ _ h => nomatch h) (fun _ h => nomatch h)

theorem sessStep_knows (e : Env) (h : Nat) (c : SCall) (x : Session) (t : Token) (g : Kind → Known)
    (hk : Knows g x) : Knows (seeSess g c (sessStep C O e h c x t).1) (sessStep C O e h c x t).2.1 := by
  have hg : ∀ (a : Out), (∀ tm, c ≠ .findInit tm) → c ≠ .findFinal → seeSess g c a = g := by
    intro a h1 h2
    funext j
    unfold seeSess
    split
    · exact (h1 _ rfl).elim
    · exact (h2 rfl).elim
    · rfl
  cases c with
  | findInit tm =>
    unfold sessStep
    simp only
    split
    · have : ∀ r, seeSess g (.findInit tm) (.err r) = g := by intro r; funext j; simp [seeSess]
      simp only [this]; exact hk
    · unfold Session.newSearch
      split
      · have : ∀ r, seeSess g (.findInit tm) (Out.of (.error r)) = g := by
          intro r; funext j; simp [seeSess, Out.of]
        simp only [this]; exact hk
      · simp only
        split
        · have : ∀ r, seeSess g (.findInit tm) (Out.of (.error r)) = g := by
            intro r; funext j; simp [seeSess, Out.of]
          simp only [this]; exact hk
        · have e1 : seeSess g (.findInit tm) (Out.of (.ok ())) = fun j => if j = .search then .yes else g j := by
            funext j; simp [seeSess, Out.of]
          simp only [e1]
          refine ⟨hk.yes, hk.no, fun _ => nofun, ?_, ?_, ?_⟩
          · intro hy; simp at hy
          · simp
          · intro hy; cases hy
  | find max =>
    rw [hg _ (fun _ h => nomatch h) nofun]
    have hc : (sessStep C O e h (.find max) x t).2.1 = x ∨
        (∃ l l', x.search = some l' ∧ (sessStep C O e h (.find max) x t).2.1 = { x with search := some l }) := by
      unfold sessStep Session.findObjects
      simp only
      cases x.checkLogin with
      | error r => exact .inl rfl
      | ok u =>
        cases hx : x.search with
        | none => exact .inl rfl
        | some l => exact .inr ⟨_, l, rfl, rfl⟩
    rcases hc with hc | ⟨l, l', hl, hc⟩
    · rw [hc]; exact hk
    · rw [hc]
      refine ⟨hk.yes, hk.no, fun _ => nofun, ?_, hk.sure, ?_⟩
      · intro hy; rw [hk.idle hy] at hl; cases hl
      · intro hn; rw [(hk.fresh hn).2] at hl; cases hl
  | findFinal =>
    unfold sessStep
    have e1 : seeSess g .findFinal .ok = fun j => if j = .search then .no else g j := by
      funext j; simp [seeSess]
    simp only [e1]
    refine ⟨hk.yes, hk.no, ?_, fun _ => rfl, ?_, fun hn => ⟨(hk.fresh hn).1, rfl⟩⟩
    · intro hy; simp at hy
    · simp
  | getObjectSize oh =>
    rw [hg _ (fun _ h => nomatch h) nofun]
    have : (sessStep C O e h (.getObjectSize oh) x t).2.1 = x := by
      unfold sessStep
      simp only
      repeat' split
      all_goals rfl
    rw [this]; exact hk
  | getAttr oh tm =>
    rw [hg _ (fun _ h => nomatch h) nofun]
    have : (sessStep C O e h (.getAttr oh tm) x t).2.1 = x := by
      unfold sessStep
      simp only
      split <;> rfl
    rw [this]; exact hk
  | initPin pin =>
    rw [hg _ (fun _ h => nomatch h) nofun]
    have : (sessStep C O e h (.initPin pin) x t).2.1 = x := by
      unfold sessStep
      simp only
      split <;> rfl
    rw [this]; exact hk
  | getSessionInfo => rw [hg _ (fun _ h => nomatch h) nofun]; exact hk
  | setPin old new => rw [hg _ (fun _ h => nomatch h) nofun]; exact hk
  | createObject tm => rw [hg _ (fun _ h => nomatch h) nofun]; exact hk
  | copyObject oh tm => rw [hg _ (fun _ h => nomatch h) nofun]; exact hk
  | destroyObject oh => rw [hg _ (fun _ h => nomatch h) nofun]; exact hk
  | setAttr oh tm => rw [hg _ (fun _ h => nomatch h) nofun]; exact hk

theorem Knows.same {g : Kind → Known} {x y : Session} (h : Knows g x) (s : SameOps x y) : Knows g y := by
  obtain ⟨h1, h2, h3⟩ := s
  refine ⟨?_, ?_, ?_, ?_, h.sure, ?_⟩
  · intro k hy; unfold Running; rw [h1]; exact h.yes k hy
  · intro k hy; unfold Running; rw [h1]; exact h.no k hy
  · rw [h2]; exact h.search
  · rw [h2]; exact h.idle
  · rw [h1, h2, h3]; exact h.fresh

/-- Every session agrees with the notebook. -/
def KInv (g : Nat → Kind → Known) (s : St) : Prop :=
  ∀ i sl h x, AMap.get s.slots i = some sl → AMap.get sl.sessions h = some x → Knows (g h) x

theorem knows_step (hM : Lawful M) {e : Env} {s : St} {c : Call} {g : Nat → Kind → Known} (hi : Inv s)
    (hk : KInv g s) : KInv (seeKinds g (c, (step M C O e s c).1)) (step M C O e s c).2 := by
  intro i sl' h y hs hy
  have mv := step_sess hi hs hy
  generalize (step M C O e s c).1 = a at mv
  cases mv with
  | opened f hsm ho hse hl =>
    have : seeKinds g (.openSession i f, .handle h) h = fun _ => .no := by
      funext j
      simp [seeKinds]
    show Knows (seeKinds g (.openSession i f, .handle h) h) y
    rw [this]
    refine ⟨(fun _ h => nomatch h), ?_, (fun h => nomatch h), (fun _ => hse), (fun h => nomatch h),
      (fun _ => ⟨ho, hse⟩)⟩
    intro k _ hr
    obtain ⟨o, h1, _⟩ := hr
    rw [ho] at h1; cases h1
  | kept c a sl x hs0 hx hk0 hc hc2 hc3 =>
    have kx := (hk i sl h x hs0 hx).same hk0
    have : seeKinds g (c, a) h = g h := by
      cases c with
      | openSession j f =>
        cases a with
        | handle n =>
          show (if h = n then fun _ => Known.no else g h) = g h
          rw [if_neg]
          intro e; subst e
          exact hc3 j f rfl rfl
        | _ => rfl
      | op h' oc =>
        show (if h = h' then seeOp (g h) oc a else g h) = g h
        rw [if_neg]
        intro e; subst e
        exact hc _ rfl
      | sess h' sc =>
        show (if h = h' then seeSess (g h) sc a else g h) = g h
        rw [if_neg]
        intro e; subst e
        exact hc2 _ rfl
      | _ => rfl
    rw [this]; exact kx
  | loggedIn pin sl x hs0 hx ho hse hr hl hok =>
    have kx := hk i sl h x hs0 hx
    show Knows (g h) y
    refine ⟨?_, ?_, ?_, ?_, kx.sure, ?_⟩
    · intro k hy; unfold Running; rw [ho]; exact kx.yes k hy
    · intro k hy; unfold Running; rw [ho]; exact kx.no k hy
    · rw [hse]; exact kx.search
    · rw [hse]; exact kx.idle
    · intro hn; rw [hl] at hn; cases hn
  | sess sc sl x hg hyy =>
    obtain ⟨_, _, h1, h2⟩ := getSession_ok hg
    have kx := hk i sl h x h1 h2
    have : ∀ a, seeKinds g (.sess h sc, a) h = seeSess (g h) sc a := by
      intro a; funext j; simp [seeKinds]
    rw [this, hyy]
    exact sessStep_knows e h sc x sl.token (g h) kx
  | op oc sl x hg hyy =>
    obtain ⟨_, _, h1, h2⟩ := getSession_ok hg
    have kx := hk i sl h x h1 h2
    have : ∀ a, seeKinds g (.op h oc, a) h = seeOp (g h) oc a := by
      intro a; funext j; simp [seeKinds]
    rw [this, hyy]
    exact opStep_knows hM e h oc x sl.token (g h) kx

theorem knows_run (hM : Lawful M) (tr : Trace) {s : St} {g : Nat → Kind → Known} (hi : Inv s)
    (hk : KInv g s) : KInv ((hist M C O s tr).foldl seeKinds g) (run M C O s tr) := by
  induction tr generalizing s g with
  | nil => exact hk
  | cons p tr ih =>
    obtain ⟨e, c⟩ := p
    exact ih (inv_step M O e s c hi) (knows_step hM hi hk)

theorem knows_reach (hM : Lawful M) (d : List (Nat × Db)) (tr : Trace) :
    KInv (known (hist M C O (St.init d) tr)) (run M C O (St.init d) tr) :=
  knows_run hM tr (inv_empty d 0) (by intro i sl h x hs; cases hs)

end Kry
