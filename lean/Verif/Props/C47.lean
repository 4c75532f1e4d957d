import Verif.Model.Locks

/-!
# C47: calls on different threads do not deadlock

The claim is false.  C_Login and C_Logout change all sessions of the slot while they hold its token; most other calls hold a session and
then ask for the token.  `C47_login_violation` and `C47_logout_violation` are schedules of one such call against C_CreateObject on another
session; `C47_forever` shows that the threads then never go on, and `C47_frozen_violation` that a third call waits with them.  In the FIPS
build `C47_fips_violation` needs only C_DeriveKey, twice.

`C47_partial`: on any number of threads, for every schedule and every sequence of calls, no set of threads wait for each other as long as
each slot sees only one of the two kinds of calls (`tokenFirst`, `sessionFirst`).  `C47_live_partial`: then each waiting thread waits, over a
chain of others, for a thread that is not waiting or whose lock is free.
-/

namespace Kry
namespace Spec

/-- Thread `t` is kept waiting by `t'`: that one has a guard on the lock, or waits for the lock to write where `t` wants to read (a waiting
writer may go first). -/
def waitsFor (σ : Threads) (t t' : Nat) : Prop :=
  ∃ l m, (σ t).wait = some (l, m) ∧
    ((∃ m', (l, m') ∈ (σ t').held ∧ ¬ (m = .r ∧ m' = .r)) ∨ (m = .r ∧ (σ t').wait = some (l, .w)))

/-- A set of threads each of which is kept waiting by one of them. -/
def deadlock (σ : Threads) (D : Nat → Prop) : Prop := (∃ t, D t) ∧ ∀ t, D t → ∃ t', D t' ∧ waitsFor σ t t'

/-- The calls that ask for a session while they have the token. -/
def tokenFirst (fips : Bool) (f : LFn) : Bool :=
  match f with
  | .login _ | .logout => true
  | .deriveKey | .encapsulateKey | .decapsulateKey => fips
  | _ => false

/-- The calls that ask for the token while they have a session. -/
def sessionFirst (f : LFn) : Bool :=
  [.setPin, .getOperationState, .setOperationState, .createObject, .copyObject, .destroyObject, .setAttributeValue, .findObjectsInit,
   .encryptInit, .decryptInit, .messageEncryptInit, .encryptMessageBegin, .messageDecryptInit, .decryptMessageBegin, .digestInit, .digestKey,
   .signInit, .sign, .signFinal, .verifyInit, .verify, .verifyFinal, .verifySignatureInit, .verifySignature, .verifySignatureFinal,
   .generateKey, .generateKeyPair, .wrapKey, .unwrapKey, .deriveKey, .encapsulateKey, .decapsulateKey].contains f

/-- Each slot sees only one of the two kinds of calls. -/
def oneKind (fips : Bool) (dir : Nat → Bool) (c : LCall) : Prop :=
  if dir c.slot = true then tokenFirst fips c.fn = false else sessionFirst c.fn = false

/-- A chain of waiting threads from `t` to `t'`. -/
inductive WaitChain (σ : Threads) : Nat → Nat → Prop where
  | here (t) : WaitChain σ t t
  | next {t u v} : waitsFor σ t u → WaitChain σ u v → WaitChain σ t v

end Spec

open Spec

/-- An order of the locks; the session and the token of a slot come in the order that its calls follow. -/
def lkRank (dir : Nat → Bool) : Lk → Nat
  | .conf => 0
  | .state => 1
  | .session i _ => if dir i = true then 2 else 3
  | .token i => if dir i = true then 3 else 2
  | .db _ => 4
  | .cache _ => 5

/-- Each lock is asked for after those below it only. -/
def Ordered (rk : Lk → Nat) : List Lk → List LAct → Prop
  | _, [] => True
  | h, .acq l _ :: r => (∀ x ∈ h, rk x < rk l) ∧ Ordered rk (l :: h) r
  | h, .rel l :: r => Ordered rk (h.filter (· ≠ l)) r

/-- The guards after a list of operations. -/
def heldAfter : List Lk → List LAct → List Lk
  | h, [] => h
  | h, .acq l _ :: r => heldAfter (l :: h) r
  | h, .rel l :: r => heldAfter (h.filter (· ≠ l)) r

theorem ordered_append (rk : Lk → Nat) (h : List Lk) (a b : List LAct) : Ordered rk h (a ++ b) ↔ Ordered rk h a ∧ Ordered rk (heldAfter h a) b := by
  induction a generalizing h with
  | nil => simp [Ordered, heldAfter]
  | cons x a ih => cases x <;> simp [Ordered, heldAfter, ih, and_assoc]

theorem heldAfter_append (h : List Lk) (a b : List LAct) : heldAfter h (a ++ b) = heldAfter (heldAfter h a) b := by
  induction a generalizing h with
  | nil => rfl
  | cons x a ih => cases x <;> simp [heldAfter, ih]

/-- Operations that are in order above the locks held and drop what they take. -/
def Neutral (rk : Lk → Nat) (h : List Lk) (a : List LAct) : Prop := Ordered rk h a ∧ heldAfter h a = h

theorem neutral_nil (rk : Lk → Nat) (h : List Lk) : Neutral rk h [] := ⟨True.intro, rfl⟩

theorem neutral_append {rk : Lk → Nat} {h : List Lk} {a b : List LAct} (x : Neutral rk h a) (y : Neutral rk h b) : Neutral rk h (a ++ b) := by
  refine ⟨(ordered_append ..).2 ⟨x.1, ?_⟩, ?_⟩
  · rw [x.2]; exact y.1
  · rw [heldAfter_append, x.2, y.2]

theorem neutral_flatMap {α : Type} {rk : Lk → Nat} {h : List Lk} {l : List α} {f : α → List LAct} (x : ∀ a ∈ l, Neutral rk h (f a)) :
    Neutral rk h (l.flatMap f) := by
  induction l with
  | nil => exact neutral_nil _ _
  | cons a l ih =>
    rw [List.flatMap_cons]
    exact neutral_append (x a List.mem_cons_self) (ih fun b hb => x b (List.mem_cons_of_mem _ hb))

theorem filter_fresh {rk : Lk → Nat} {h : List Lk} {l : Lk} (hl : ∀ x ∈ h, rk x < rk l) : (l :: h).filter (· ≠ l) = h := by
  rw [List.filter_cons_of_neg (by simp)]
  refine List.filter_eq_self.2 fun x hx => ?_
  have := hl x hx
  refine decide_eq_true fun e => ?_
  rw [e] at this
  exact Nat.lt_irrefl _ this

theorem neutral_around {rk : Lk → Nat} {h : List Lk} {l : Lk} {m : LMode} {a : List LAct} (hl : ∀ x ∈ h, rk x < rk l)
    (ha : Neutral rk (l :: h) a) : Neutral rk h (.acq l m :: (a ++ [.rel l])) := by
  refine ⟨⟨hl, (ordered_append ..).2 ⟨ha.1, ?_⟩⟩, ?_⟩
  · exact True.intro
  · show heldAfter (l :: h) (a ++ [.rel l]) = h
    rw [heldAfter_append, ha.2]
    exact filter_fresh hl

theorem neutral_brief {rk : Lk → Nat} {h : List Lk} {l : Lk} (m : LMode) (hl : ∀ x ∈ h, rk x < rk l) : Neutral rk h (brief l m) :=
  neutral_around (a := []) hl (neutral_nil _ _)

theorem ordered_cons {rk : Lk → Nat} {h : List Lk} {l : Lk} {m : LMode} {r : List LAct} (hl : ∀ x ∈ h, rk x < rk l)
    (hr : Ordered rk (l :: h) r) : Ordered rk h (.acq l m :: r) := ⟨hl, hr⟩

theorem ordered_after {rk : Lk → Nat} {h : List Lk} {a r : List LAct} (ha : Neutral rk h a) (hr : Ordered rk h r) : Ordered rk h (a ++ r) :=
  (ordered_append ..).2 ⟨ha.1, by rw [ha.2]; exact hr⟩

theorem rank_le (dir : Nat → Bool) (l : Lk) : lkRank dir l ≤ 5 := by
  cases l <;> simp only [lkRank] <;> (try split) <;> omega

/-- The storage only takes its own locks. -/
theorem stActs_neutral {dir : Nat → Bool} {h : List Lk} (i : Nat) (u : List StUse) (hh : ∀ x ∈ h, lkRank dir x < 4) :
    Neutral (lkRank dir) h (stActs i u) := by
  have h5 : ∀ x ∈ h, lkRank dir x < lkRank dir (.cache i) := fun x hx => Nat.lt_trans (hh x hx) (by simp [lkRank])
  refine neutral_flatMap fun a _ => ?_
  cases a with
  | db => exact neutral_brief _ hh
  | cache m => exact neutral_brief _ h5
  | dbCache m =>
    refine neutral_around hh (neutral_brief _ fun x hx => ?_)
    rcases List.mem_cons.1 hx with rfl | hx
    · simp [lkRank]
    · exact h5 x hx

section
variable (dir : Nat → Bool) (c : LCall)

theorem tokenOnly_ordered (m : LMode) : Ordered (lkRank dir) [] (tokenOnly c m) := by
  refine ordered_cons nofun (ordered_cons ?_ (stActs_neutral _ _ ?_).1)
  · simp only [List.mem_singleton, forall_eq, lkRank]; split <;> omega
  · simp only [List.mem_cons, List.not_mem_nil, or_false, forall_eq_or_imp, forall_eq, lkRank]
    split <;> omega

theorem sessionOnly_ordered (m : LMode) (r : List LAct) (hr : Ordered (lkRank dir) [.session c.slot c.sess, .state] r) :
    Ordered (lkRank dir) [] (sessionOnly c m ++ r) := by
  refine ordered_cons nofun (ordered_cons ?_ hr)
  simp only [List.mem_singleton, forall_eq, lkRank]; split <;> omega

theorem sessionToken_ordered (hd : dir c.slot = true) (ms mt : LMode) : Ordered (lkRank dir) [] (sessionToken c ms mt) := by
  refine ordered_cons nofun (ordered_cons ?_ (ordered_cons ?_ (stActs_neutral _ _ ?_).1)) <;> simp [lkRank, hd]

theorem eachSession_neutral (hd : ¬ dir c.slot = true) (m : LMode) (h : List Lk) (hh : ∀ x ∈ h, lkRank dir x < 3) :
    Neutral (lkRank dir) h (eachSession c m) :=
  neutral_flatMap fun a _ => neutral_brief _ fun x hx => by
    have := hh x hx
    simpa [lkRank, hd] using this

theorem login_ordered (hd : ¬ dir c.slot = true) (u : LUser) :
    Ordered (lkRank dir) [] (.acq .state .r :: (brief (.session c.slot c.sess) .r ++ loginActs c u)) := by
  have hst : ∀ x ∈ [Lk.state], lkRank dir x < 3 := by simp [lkRank]
  have ht : ∀ x ∈ [Lk.token c.slot, Lk.state], lkRank dir x < 3 := by simp [lkRank, hd]
  have ht4 : ∀ x ∈ [Lk.token c.slot, Lk.state], lkRank dir x < 4 := fun x hx => Nat.lt_succ_of_lt (ht x hx)
  have hb : ∀ m, Neutral (lkRank dir) [Lk.token c.slot, Lk.state] (brief (.session c.slot c.sess) m) :=
    fun m => neutral_brief _ fun x hx => by have := ht x hx; simpa [lkRank, hd] using this
  refine ordered_cons nofun (ordered_after (neutral_brief _ (by simp [lkRank, hd])) ?_)
  have tok : ∀ r, Ordered (lkRank dir) [Lk.token c.slot, Lk.state] r → Ordered (lkRank dir) [Lk.state] (.acq (.token c.slot) .w :: r) :=
    fun r hr => ordered_cons (by simp [lkRank, hd]) hr
  cases u with
  | so =>
    exact ordered_after (eachSession_neutral dir c hd .r _ hst) (tok _ (ordered_after (stActs_neutral _ _ ht4)
      (ordered_after (eachSession_neutral dir c hd .w _ ht) (eachSession_neutral dir c hd .w _ ht).1)))
  | user =>
    exact tok _ (ordered_after (stActs_neutral _ _ ht4)
      (ordered_after (eachSession_neutral dir c hd .w _ ht) (eachSession_neutral dir c hd .w _ ht).1))
  | context =>
    exact tok _ (ordered_after (hb _) (ordered_after (stActs_neutral _ _ ht4) (ordered_after (hb _) (eachSession_neutral dir c hd .w _ ht).1)))

theorem logout_ordered (hd : ¬ dir c.slot = true) : Ordered (lkRank dir) []
    (.acq .state .r :: (brief (.session c.slot c.sess) .r ++ .acq (.token c.slot) .w :: (stActs c.slot c.uses ++ eachSession c .w))) := by
  have ht : ∀ x ∈ [Lk.token c.slot, Lk.state], lkRank dir x < 3 := by simp [lkRank, hd]
  refine ordered_cons nofun (ordered_after (neutral_brief _ (by simp [lkRank, hd])) (ordered_cons (by simp [lkRank, hd]) ?_))
  exact ordered_after (stActs_neutral _ _ fun x hx => Nat.lt_succ_of_lt (ht x hx)) (eachSession_neutral dir c hd .w _ ht).1

end

/-- The calls of the allowed kinds follow the order. -/
theorem acts_ordered {fips : Bool} {dir : Nat → Bool} {c : LCall} (hc : oneKind fips dir c) : Ordered (lkRank dir) [] (c.acts fips) := by
  have hs : sessionFirst c.fn = true → dir c.slot = true := by
    intro h
    unfold oneKind at hc
    split at hc
    · assumption
    · rw [h] at hc; cases hc
  have ht : tokenFirst fips c.fn = true → ¬ dir c.slot = true := by
    intro h hd
    unfold oneKind at hc
    rw [if_pos hd, h] at hc
    cases hc
  have sOnly : ∀ m, Ordered (lkRank dir) [] (sessionOnly c m) := fun m => by
    have := sessionOnly_ordered dir c m [] True.intro
    rwa [List.append_nil] at this
  have der : sessionFirst c.fn = true → (fips = true → tokenFirst fips c.fn = true) → Ordered (lkRank dir) [] (deriveActs fips c) := by
    intro h1 h2
    unfold deriveActs
    split
    · rename_i hf
      exact absurd (hs h1) (ht (h2 hf))
    · exact sessionToken_ordered dir c (hs h1) _ _
  have small : ∀ i, (∀ x ∈ [Lk.token i, Lk.state], lkRank dir x < 4) ∧ ∀ x ∈ [Lk.state], lkRank dir x < lkRank dir (.token i) := by
    intro i
    simp only [List.mem_cons, List.not_mem_nil, or_false, forall_eq_or_imp, forall_eq, lkRank]
    split <;> omega
  unfold LCall.acts
  cases hfn : c.fn <;> simp only <;>
    first
    | exact tokenOnly_ordered dir c _
    | exact sOnly _
    | exact sessionToken_ordered dir c (hs (by rw [hfn]; rfl)) _ _
    | exact der (by rw [hfn]; rfl) (by rw [hfn]; exact fun h => h)
    | exact sessionOnly_ordered dir c _ _ True.intro
    | exact login_ordered dir c (ht (by rw [hfn]; rfl)) _
    | exact logout_ordered dir c (ht (by rw [hfn]; rfl))
    | exact ordered_cons nofun True.intro
    | skip
  case «initialize» =>
    exact ordered_cons nofun (ordered_cons (by simp [lkRank]) (neutral_flatMap fun i _ => stActs_neutral i _ (by simp [lkRank])).1)
  case finalize =>
    refine ordered_cons nofun (ordered_cons (by simp [lkRank]) (neutral_flatMap fun i _ => ?_).1)
    refine neutral_around ?_ (stActs_neutral i _ ?_)
    · simp only [List.mem_cons, List.not_mem_nil, or_false, forall_eq_or_imp, forall_eq, lkRank]; split <;> omega
    · simp only [List.mem_cons, List.not_mem_nil, or_false, forall_eq_or_imp, forall_eq, lkRank]; split <;> omega
  case openSession => exact ordered_cons nofun (ordered_cons (small _).2 True.intro)
  case closeSession =>
    exact ordered_cons nofun (ordered_after (neutral_brief _ (small _).2) (ordered_cons (small _).2 (stActs_neutral _ _ (small _).1).1))
  case getAttributeValue => exact ordered_after (neutral_brief _ nofun) (tokenOnly_ordered dir c _)

/-- What holds of each thread: the lock it waits for is above those it has, and the rest of its call follows the order. -/
def ThrOk (rk : Lk → Nat) (x : Thr) : Prop :=
  match x.wait with
  | none => Ordered rk (x.held.map (·.1)) x.todo
  | some (l, _) => (∀ y ∈ x.held, rk y.1 < rk l) ∧ Ordered rk (l :: x.held.map (·.1)) x.todo

theorem filter_fst (h : List (Lk × LMode)) (l : Lk) : (h.filter (fun x => x.1 ≠ l)).map (·.1) = (h.map (·.1)).filter (· ≠ l) := by
  rw [List.filter_map]; rfl

theorem thrOk_run {fips : Bool} {dir : Nat → Bool} {σ σ' : Threads} (h : LRun fips (oneKind fips dir) σ σ')
    (h0 : ∀ t, ThrOk (lkRank dir) (σ t)) : ∀ t, ThrOk (lkRank dir) (σ' t) := by
  induction h with
  | refl => exact h0
  | step _ hs ih =>
    intro t
    have set : ∀ (τ : Threads) (u : Nat) (x : Thr), (∀ t, ThrOk (lkRank dir) (τ t)) → ThrOk (lkRank dir) x →
        ThrOk (lkRank dir) (τ.set u x t) := by
      intro τ u x h1 h2
      unfold Threads.set
      split
      · exact h2
      · exact h1 t
    cases hs with
    | begin_ u c hc hi => exact set _ _ _ ih (acts_ordered hc)
    | ask u hu =>
      refine set _ _ _ ih ?_
      have := ih u
      rw [hu] at this
      obtain ⟨h1, h2⟩ := this
      exact ⟨fun y hy => h1 y.1 (List.mem_map_of_mem hy), h2⟩
    | give u hu _ =>
      refine set _ _ _ ih ?_
      have := ih u
      rw [hu] at this
      exact this.2
    | drop u hu =>
      refine set _ _ _ ih ?_
      have := ih u
      rw [hu] at this
      unfold ThrOk at this ⊢
      simp only at this ⊢
      rw [filter_fst]
      exact this
    | ret u hu => exact set _ _ _ ih True.intro

/-- The lock a thread waits for. -/
def waitRank (dir : Nat → Bool) (x : Thr) : Nat :=
  match x.wait with
  | none => 6
  | some (l, _) => lkRank dir l

/-- One who has a lock and waits, waits for a higher one. -/
theorem waitRank_held {dir : Nat → Bool} {x : Thr} (hx : ThrOk (lkRank dir) x) {l : Lk} {m : LMode} (h : (l, m) ∈ x.held) :
    lkRank dir l < waitRank dir x := by
  unfold waitRank
  cases hw : x.wait with
  | none => exact Nat.lt_succ_of_le (rank_le dir l)
  | some p =>
    unfold ThrOk at hx
    rw [hw] at hx
    exact hx.1 _ h

/-- Along the chain the ranks grow: at once, or at the next thread. -/
theorem waits_rank {dir : Nat → Bool} {σ : Threads} (ok : ∀ t, ThrOk (lkRank dir) (σ t)) {t t' : Nat} (h : waitsFor σ t t') :
    waitRank dir (σ t) < waitRank dir (σ t') ∨
      (waitRank dir (σ t') = waitRank dir (σ t) ∧ ∀ t'', waitsFor σ t' t'' → waitRank dir (σ t') < waitRank dir (σ t'')) := by
  obtain ⟨l, m, hw, ⟨m', hh, _⟩ | ⟨rfl, hw'⟩⟩ := h
  · left
    have := waitRank_held (ok t') hh
    unfold waitRank at this ⊢
    rw [hw]
    exact this
  · right
    refine ⟨by unfold waitRank; rw [hw, hw'], ?_⟩
    rintro t'' ⟨l2, m2, hw2, ⟨m', hh, _⟩ | ⟨rfl, _⟩⟩
    · rw [hw'] at hw2
      injection hw2 with hw2
      injection hw2 with e1 e2
      subst e1
      have := waitRank_held (ok t'') hh
      unfold waitRank at this ⊢
      rw [hw']
      exact this
    · rw [hw'] at hw2
      injection hw2 with hw2
      injection hw2 with e1 e2
      cases e2

theorem waits_two {dir : Nat → Bool} {σ : Threads} (ok : ∀ t, ThrOk (lkRank dir) (σ t)) {t t' t'' : Nat} (h : waitsFor σ t t')
    (h' : waitsFor σ t' t'') : waitRank dir (σ t) < waitRank dir (σ t'') := by
  rcases waits_rank ok h with h1 | ⟨h1, h2⟩
  · rcases waits_rank ok h' with h3 | ⟨h3, _⟩ <;> omega
  · have := h2 _ h'
    omega

theorem waitRank_le (dir : Nat → Bool) (x : Thr) : waitRank dir x ≤ 6 := by
  unfold waitRank
  cases x.wait with
  | none => exact Nat.le_refl _
  | some p => exact Nat.le_succ_of_le (rank_le dir p.1)

/-- Following the chain ends at a thread that nobody keeps waiting. -/
theorem chain_end {dir : Nat → Bool} {σ : Threads} (ok : ∀ t, ThrOk (lkRank dir) (σ t)) (t : Nat) :
    ∃ t', WaitChain σ t t' ∧ ¬ ∃ u, waitsFor σ t' u := by
  have key : ∀ n t, 6 - waitRank dir (σ t) ≤ n → ∃ t', WaitChain σ t t' ∧ ¬ ∃ u, waitsFor σ t' u := by
    intro n
    induction n with
    | zero =>
      intro t hn
      refine ⟨t, .here t, ?_⟩
      rintro ⟨u, l, m, hw, _⟩
      have := rank_le dir l
      unfold waitRank at hn
      rw [hw] at hn
      simp only at hn
      omega
    | succ n ih =>
      intro t hn
      by_cases h : ∃ u, waitsFor σ t u
      · obtain ⟨u, hu⟩ := h
        by_cases h' : ∃ v, waitsFor σ u v
        · obtain ⟨v, hv⟩ := h'
          have h1 := waits_two ok hu hv
          have h2 := waitRank_le dir (σ v)
          obtain ⟨x, hx, hx2⟩ := ih v (by omega)
          exact ⟨x, .next hu (.next hv hx), hx2⟩
        · exact ⟨u, .next hu (.here u), h'⟩
      · exact ⟨t, .here t, h⟩
  exact key _ t (Nat.le_refl _)

theorem start_ok (rk : Lk → Nat) : ∀ t, ThrOk rk (Threads.start t) := fun _ => True.intro

/-- **C47, one kind of calls on each slot.**  No schedule of any calls on any number of threads deadlocks. -/
theorem C47_partial (fips : Bool) (dir : Nat → Bool) {σ : Threads} (h : LRun fips (oneKind fips dir) .start σ) : ¬ ∃ D, deadlock σ D := by
  rintro ⟨D, ⟨t, ht⟩, hD⟩
  have ok := thrOk_run h (start_ok _)
  obtain ⟨t', hc, he⟩ := chain_end ok t
  have key : ∀ n t, 6 - waitRank dir (σ t) ≤ n → ¬ D t := by
    intro n
    induction n with
    | zero =>
      intro t hn hd
      obtain ⟨u, _, l, m, hw, _⟩ := hD t hd
      have := rank_le dir l
      unfold waitRank at hn
      rw [hw] at hn
      simp only at hn
      omega
    | succ n ih =>
      intro t hn hd
      obtain ⟨u, hu, hw⟩ := hD t hd
      obtain ⟨v, hv, hw'⟩ := hD u hu
      have h1 := waits_two ok hw hw'
      have h2 := waitRank_le dir (σ v)
      exact ih v (by omega) hv
  exact key _ t (Nat.le_refl _) ht

/-- **C47, somebody can go on.**  A waiting thread waits, over a chain of others, for one that is inside its call and not waiting, or whose lock
is free. -/
theorem C47_live_partial (fips : Bool) (dir : Nat → Bool) {σ : Threads} (h : LRun fips (oneKind fips dir) .start σ) (t : Nat)
    (ht : (σ t).wait ≠ none) :
    ∃ t', WaitChain σ t t' ∧ (((σ t').wait = none ∧ (σ t').held ≠ []) ∨
      ∃ σ', LStep fips (oneKind fips dir) σ σ' ∧ (σ' t').wait = none ∧ (σ t').wait ≠ none) := by
  have ok := thrOk_run h (start_ok _)
  obtain ⟨t', hc, he⟩ := chain_end ok t
  refine ⟨t', hc, ?_⟩
  cases hw : (σ t').wait with
  | none =>
    left
    refine ⟨rfl, fun hh => ?_⟩
    -- the last link of the chain is a guard
    have last : ∀ {t v}, WaitChain σ t v → (σ v).wait = none → (σ t).wait ≠ none → (σ v).held ≠ [] := by
      intro t v hc
      induction hc with
      | here t => exact fun h h' => absurd h h'
      | @next a b v hw1 hc ih =>
        intro hv _
        by_cases hb : (σ b).wait = none
        · cases hc with
          | here =>
            obtain ⟨l, m, _, ⟨m', hm, _⟩ | ⟨_, h2⟩⟩ := hw1
            · exact List.ne_nil_of_mem hm
            · rw [hb] at h2; cases h2
          | next hw2 _ =>
            obtain ⟨l, m, h1, _⟩ := hw2
            rw [hb] at h1; cases h1
        · exact ih hv hb
    exact last hc hw ht hh
  | some p =>
    right
    obtain ⟨l, m⟩ := p
    cases hx : σ t' with
    | mk hd wt td =>
      rw [hx] at hw
      simp only at hw
      subst hw
      refine ⟨_, .give t' hx fun u m' hu => ?_, by unfold Threads.set; rw [if_pos rfl], by simp⟩
      refine Decidable.byContradiction fun hn => he ⟨u, l, m, by rw [hx], .inl ⟨m', hu, hn⟩⟩

/-! ## The violations -/

/-- Threads that keep each other waiting by their guards. -/
def Spec.stuck (σ : Threads) (D : Nat → Prop) : Prop :=
  (∃ t, D t) ∧ ∀ t, D t → ∃ t', D t' ∧ ∃ l m m', (σ t).wait = some (l, m) ∧ (l, m') ∈ (σ t').held ∧ ¬ (m = .r ∧ m' = .r)

theorem stuck_deadlock {σ : Threads} {D : Nat → Prop} (h : stuck σ D) : deadlock σ D :=
  ⟨h.1, fun t ht => by
    obtain ⟨t', h1, l, m, m', h2, h3, h4⟩ := h.2 t ht
    exact ⟨t', h1, l, m, h2, .inl ⟨m', h3, h4⟩⟩⟩

/-- Such threads never do anything again, whatever the others do. -/
theorem C47_forever {fips : Bool} {P : LCall → Prop} {σ σ' : Threads} {D : Nat → Prop} (h : stuck σ D) (hr : LRun fips P σ σ') :
    ∀ t, D t → σ' t = σ t := by
  induction hr with
  | refl => exact fun _ _ => rfl
  | step _ hs ih =>
    rename_i τ τ' _
    have keep : ∀ u x, (D u → False) → ∀ t, D t → τ.set u x t = σ t := by
      intro u x hu t ht
      unfold Threads.set
      split
      · rename_i e; subst e; exact (hu ht).elim
      · exact ih t ht
    have waiting : ∀ u, D u → (τ u).wait ≠ none := by
      intro u hu e
      obtain ⟨_, _, l, m, m', h2, _⟩ := h.2 u hu
      rw [ih u hu, h2] at e
      cases e
    cases hs with
    | begin_ u c hc hi => exact keep u _ fun hu => waiting u hu (by rw [hi]; rfl)
    | ask u hu' => exact keep u _ fun hu => waiting u hu (by rw [hu'])
    | give u hu' hg =>
      refine keep u _ fun hu => ?_
      obtain ⟨t', h1, l, m, m', h2, h3, h4⟩ := h.2 u hu
      rw [← ih u hu, hu'] at h2
      injection h2 with h2
      injection h2 with e1 e2
      subst e1 e2
      rw [← ih t' h1] at h3
      exact h4 (hg t' m' h3)
    | drop u hu' => exact keep u _ fun hu => waiting u hu (by rw [hu'])
    | ret u hu' => exact keep u _ fun hu => waiting u hu (by rw [hu'])

/-! ## Concrete schedules -/

/-- One entry of a schedule: the thread, and what it does. -/
inductive Turn where
  | call (t : Nat) (c : LCall)
  | ask (t : Nat)
  | give (t : Nat)
  | drop (t : Nat)
  | ret (t : Nat)

/-- Threads given by a list, the others idle. -/
def Threads.of (l : List Thr) : Threads := fun t => (l[t]?).getD .idle

/-- One entry of a schedule carried out; `none` if it is not possible. -/
def Turn.play (fips : Bool) (l : List Thr) : Turn → Option (List Thr)
  | .call t c => match l[t]? with
    | some ⟨[], none, []⟩ => some (l.set t ⟨[], none, c.acts fips⟩)
    | _ => none
  | .ask t => match l[t]? with
    | some ⟨h, none, .acq k m :: r⟩ => some (l.set t ⟨h, some (k, m), r⟩)
    | _ => none
  | .give t => match l[t]? with
    | some ⟨h, some (k, m), r⟩ =>
      if l.all fun x => x.held.all fun p => decide (p.1 = k → compat m p.2) then some (l.set t ⟨(k, m) :: h, none, r⟩) else none
    | _ => none
  | .drop t => match l[t]? with
    | some ⟨h, none, .rel k :: r⟩ => some (l.set t ⟨h.filter (fun x => x.1 ≠ k), none, r⟩)
    | _ => none
  | .ret t => match l[t]? with
    | some ⟨_, none, _⟩ => some (l.set t .idle)
    | _ => none

/-- The calls of a schedule. -/
def Turn.ok (P : LCall → Prop) : Turn → Prop
  | .call _ c => P c
  | _ => True

/-- A schedule carried out. -/
def playAll (fips : Bool) : List Thr → List Turn → Option (List Thr)
  | l, [] => some l
  | l, a :: r => (a.play fips l).bind fun l => playAll fips l r

theorem of_set {l : List Thr} {t : Nat} {x y : Thr} (h : l[t]? = some y) : Threads.of (l.set t x) = (Threads.of l).set t x := by
  funext u
  unfold Threads.of Threads.set
  have hl : t < l.length := (List.getElem?_eq_some_iff.1 h).1
  split
  · rename_i e
    subst e
    simp [hl]
  · rename_i e
    rw [List.getElem?_set_ne (fun x => e x.symm)]

theorem of_get {l : List Thr} {t : Nat} {y : Thr} (h : l[t]? = some y) : Threads.of l t = y := by
  unfold Threads.of; rw [h]; rfl

theorem play_step {fips : Bool} {P : LCall → Prop} {l l' : List Thr} {a : Turn} (h : a.play fips l = some l') (hp : a.ok P) :
    LStep fips P (Threads.of l) (Threads.of l') := by
  cases a <;> simp only [Turn.play] at h <;> split at h <;> try cases h
  · rename_i t c _ e
    rw [of_set e]; exact .begin_ t c hp (of_get e)
  · rename_i e
    rw [of_set e]; exact .ask _ (of_get e)
  · rename_i e
    split at h
    · rename_i hall
      cases h
      rw [of_set e]
      refine .give _ (of_get e) fun t' m' hm => ?_
      unfold Threads.of at hm
      cases hx : l[t']? with
      | none => rw [hx] at hm; cases hm
      | some x =>
        rw [hx] at hm
        have h1 := List.all_eq_true.1 hall x (List.mem_of_getElem? hx)
        have h2 := List.all_eq_true.1 h1 _ hm
        exact of_decide_eq_true h2 rfl
    · cases h
  · rename_i e
    rw [of_set e]; exact .drop _ (of_get e)
  · rename_i e
    rw [of_set e]; exact .ret _ (of_get e)

theorem play_run {fips : Bool} {P : LCall → Prop} {l l' : List Thr} {p : List Turn} (h : playAll fips l p = some l')
    (hp : ∀ a ∈ p, a.ok P) : LRun fips P (Threads.of l) (Threads.of l') := by
  have gen : ∀ (p : List Turn) (l : List Thr) (σ : Threads), LRun fips P σ (Threads.of l) → playAll fips l p = some l' → (∀ a ∈ p, a.ok P) →
      LRun fips P σ (Threads.of l') := by
    intro p
    induction p with
    | nil => intro l σ hr h _; cases h; exact hr
    | cons a p ih =>
      intro l σ hr h hp
      simp only [playAll] at h
      cases ha : a.play fips l with
      | none => rw [ha] at h; cases h
      | some l1 =>
        rw [ha] at h
        exact ih l1 σ (.step hr (play_step ha (hp a List.mem_cons_self))) h fun b hb => hp b (List.mem_cons_of_mem _ hb)
  exact gen p l _ (.refl _) h hp

theorem of_idle (n : Nat) : Threads.of (List.replicate n .idle) = Threads.start := by
  funext t
  unfold Threads.of Threads.start
  rw [List.getElem?_replicate]
  split <;> rfl

/-- A call on slot 7 with sessions 1 and 2 open; the storage uses its connection once. -/
def exLk (f : LFn) (h : Nat) : LCall := ⟨f, 7, h, [1, 2], [7], [.db]⟩

/-- Thread `t` asks for the next `n` locks and gets them, dropping none. -/
def takes (t : Nat) : Nat → List Turn
  | 0 => []
  | n + 1 => .ask t :: .give t :: takes t n

/-- Thread 1 has session 2; thread 0 runs C_Login or C_Logout on session 1 until it asks for session 2; thread 1 asks for the token; thread 2
asks for the state, to open a session. -/
def exCross (f : LFn) : List Turn :=
  .call 1 (exLk .createObject 2) :: takes 1 2 ++
  .call 0 (exLk f 1) :: takes 0 2 ++ .drop 0 :: takes 0 2 ++ .drop 0 :: takes 0 1 ++ .drop 0 :: [.ask 0, .ask 1,
    .call 2 (exLk .openSession 0), .ask 2]

/-- Where that ends. -/
def exCrossed (f : LFn) : List Thr := (playAll false (List.replicate 3 .idle) (exCross f)).getD []

theorem exCross_turns {f : LFn} {P : LCall → Prop} (h1 : P (exLk .createObject 2)) (h2 : P (exLk f 1)) (h3 : P (exLk .openSession 0)) :
    ∀ a ∈ exCross f, a.ok P := by
  simp only [exCross, takes, List.cons_append, List.nil_append, List.mem_cons, List.not_mem_nil, or_false, forall_eq_or_imp, forall_eq, Turn.ok,
    and_true, true_and]
  exact ⟨h1, h2, h3⟩

/-- **C47 fails: C_Login.**  C_Login(CKU_USER) and C_CreateObject on two sessions of one slot wait for each other for ever. -/
theorem C47_login_violation : ∃ σ, LRun false (fun c => c.fn = .login .user ∨ c.fn = .createObject ∨ c.fn = .openSession) .start σ ∧
    (stuck σ fun t => t = 0 ∨ t = 1) ∧
    ∀ σ', LRun false (fun _ => True) σ σ' → σ' 0 = σ 0 ∧ σ' 1 = σ 1 := by
  have hs : stuck (Threads.of (exCrossed (.login .user))) fun t => t = 0 ∨ t = 1 := by
    refine ⟨⟨0, .inl rfl⟩, ?_⟩
    rintro t (rfl | rfl)
    · exact ⟨1, .inr rfl, .session 7 2, .w, .r, by decide +kernel, by decide +kernel, by decide⟩
    · exact ⟨0, .inl rfl, .token 7, .w, .w, by decide +kernel, by decide +kernel, by decide⟩
  refine ⟨_, ?_, hs, fun σ' h => ⟨C47_forever hs h 0 (.inl rfl), C47_forever hs h 1 (.inr rfl)⟩⟩
  rw [← of_idle 3]
  exact play_run (p := exCross (.login .user)) rfl (exCross_turns (.inr (.inl rfl)) (.inl rfl) (.inr (.inr rfl)))

/-- **C47 fails: C_Logout.** -/
theorem C47_logout_violation : ∃ σ, LRun false (fun c => c.fn = .logout ∨ c.fn = .createObject ∨ c.fn = .openSession) .start σ ∧
    (stuck σ fun t => t = 0 ∨ t = 1) ∧
    ∀ σ', LRun false (fun _ => True) σ σ' → σ' 0 = σ 0 ∧ σ' 1 = σ 1 := by
  have hs : stuck (Threads.of (exCrossed .logout)) fun t => t = 0 ∨ t = 1 := by
    refine ⟨⟨0, .inl rfl⟩, ?_⟩
    rintro t (rfl | rfl)
    · exact ⟨1, .inr rfl, .session 7 2, .w, .r, by decide +kernel, by decide +kernel, by decide⟩
    · exact ⟨0, .inl rfl, .token 7, .w, .w, by decide +kernel, by decide +kernel, by decide⟩
  refine ⟨_, ?_, hs, fun σ' h => ⟨C47_forever hs h 0 (.inl rfl), C47_forever hs h 1 (.inr rfl)⟩⟩
  rw [← of_idle 3]
  exact play_run (p := exCross .logout) rfl (exCross_turns (.inr (.inl rfl)) (.inl rfl) (.inr (.inr rfl)))

/-- **C47 fails: the module freezes.**  A third thread that opens a session, on any slot, waits with them: no thread that names a session of
the slot or changes the module comes back. -/
theorem C47_frozen_violation : ∃ σ, LRun false (fun _ => True) .start σ ∧ (stuck σ fun t => t = 0 ∨ t = 1 ∨ t = 2) ∧
    ∀ σ', LRun false (fun _ => True) σ σ' → ∀ t, t ≤ 2 → σ' t = σ t := by
  have hs : stuck (Threads.of (exCrossed (.login .user))) fun t => t = 0 ∨ t = 1 ∨ t = 2 := by
    refine ⟨⟨0, .inl rfl⟩, ?_⟩
    rintro t (rfl | rfl | rfl)
    · exact ⟨1, .inr (.inl rfl), .session 7 2, .w, .r, by decide +kernel, by decide +kernel, by decide⟩
    · exact ⟨0, .inl rfl, .token 7, .w, .w, by decide +kernel, by decide +kernel, by decide⟩
    · exact ⟨0, .inl rfl, .state, .w, .r, by decide +kernel, by decide +kernel, by decide⟩
  refine ⟨_, ?_, hs, fun σ' h t ht => C47_forever hs h t (by omega)⟩
  rw [← of_idle 3]
  exact play_run (p := exCross (.login .user)) rfl (exCross_turns True.intro True.intro True.intro)

/-- Two threads derive keys on one session. -/
def exDerive : List Turn :=
  .call 0 (exLk .deriveKey 1) :: takes 0 4 ++ .drop 0 :: [.drop 0] ++ .call 1 (exLk .deriveKey 1) :: takes 1 2 ++ [.ask 1, .ask 0]

/-- **C47 fails in the FIPS build.**  Two C_DeriveKey calls on one session wait for each other for ever. -/
theorem C47_fips_violation : ∃ σ, LRun true (fun c => c.fn = .deriveKey ∧ c.sess = 1) .start σ ∧ (stuck σ fun t => t = 0 ∨ t = 1) ∧
    ∀ σ', LRun true (fun _ => True) σ σ' → σ' 0 = σ 0 ∧ σ' 1 = σ 1 := by
  have hs : stuck (Threads.of ((playAll true (List.replicate 2 .idle) exDerive).getD [])) fun t => t = 0 ∨ t = 1 := by
    refine ⟨⟨0, .inl rfl⟩, ?_⟩
    rintro t (rfl | rfl)
    · exact ⟨1, .inr rfl, .session 7 1, .w, .r, by decide +kernel, by decide +kernel, by decide⟩
    · exact ⟨0, .inl rfl, .token 7, .w, .w, by decide +kernel, by decide +kernel, by decide⟩
  refine ⟨_, ?_, hs, fun σ' h => ⟨C47_forever hs h 0 (.inl rfl), C47_forever hs h 1 (.inr rfl)⟩⟩
  rw [← of_idle 2]
  refine play_run (p := exDerive) rfl ?_
  simp only [exDerive, takes, List.cons_append, List.nil_append, List.mem_cons, List.not_mem_nil, or_false, forall_eq_or_imp, forall_eq, Turn.ok,
    and_true, true_and]
  exact ⟨⟨rfl, rfl⟩, ⟨rfl, rfl⟩⟩

/-- Thread 0 is in C_Sign on session 1 and has the token, thread 1 is in C_CreateObject on session 2 and waits for it; on slot 8 thread 3 is in
C_Login and has the token; thread 2 waits to open a session. -/
def exOrder : List Turn := .call 0 (exLk .sign 1) :: takes 0 3 ++ .call 1 (exLk .createObject 2) :: takes 1 2 ++
  .ask 1 :: .call 3 ⟨.login .so, 8, 5, [5], [], []⟩ :: takes 3 2 ++ .drop 3 :: takes 3 1 ++ .drop 3 :: takes 3 1 ++
  .call 2 (exLk .openSession 0) :: [.ask 2]

/-- Where that ends. -/
def exOrdered : List Thr := (playAll false (List.replicate 4 .idle) exOrder).getD []

theorem exOrder_plays : playAll false (List.replicate 4 .idle) exOrder = some exOrdered := by
  have h : (playAll false (List.replicate 4 .idle) exOrder).isSome = true := by decide +kernel
  unfold exOrdered
  cases e : playAll false (List.replicate 4 .idle) exOrder with
  | none => rw [e] at h; cases h
  | some x => rfl

/-- The hypotheses of `C47_partial` and `C47_live_partial` are met by threads that do wait. -/
theorem C47_partial_nonvacuous : LRun false (oneKind false (fun i => i = 7)) .start (Threads.of exOrdered) ∧
    (.token 7, .w) ∈ (Threads.of exOrdered 0).held ∧ waitsFor (Threads.of exOrdered) 1 0 ∧ waitsFor (Threads.of exOrdered) 2 0 ∧
    (.token 8, .w) ∈ (Threads.of exOrdered 3).held := by
  refine ⟨?_, by decide +kernel, ⟨.token 7, .w, by decide +kernel, .inl ⟨.w, by decide +kernel, by decide⟩⟩,
    ⟨.state, .w, by decide +kernel, .inl ⟨.r, by decide +kernel, by decide⟩⟩, by decide +kernel⟩
  rw [← of_idle 4]
  refine play_run exOrder_plays ?_
  simp only [exOrder, takes, List.cons_append, List.nil_append, List.mem_cons, List.not_mem_nil, or_false, forall_eq_or_imp, forall_eq, Turn.ok,
    and_true, true_and]
  refine ⟨?_, ?_, ?_, ?_⟩ <;> (unfold oneKind; decide)

end Kry
