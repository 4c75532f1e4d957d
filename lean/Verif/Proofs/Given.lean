import Verif.Proofs.Fetch

/-!
# Handles in answers: those of creating calls are new, all are below the counter
-/

namespace Kry
open Spec

variable {C : Crypto}

/-- `n` is new in `b` and denotes something there. -/
def Insd (a b : Token) (n : Nat) : Prop := a.handles.next ≤ n ∧ ∃ u, b.handles.get n = some u

theorem ins_ok {e : Env} {t t' : Token} {k n : Nat} {o : Obj} (ok : HOk t) (hz : Zero o)
    (h : t.insertObject C e k o = (.ok n, t')) :
    HOk t' ∧ Insd t t' n ∧ (∀ m u, t.handles.get m = some u → t'.handles.get m = some u) ∧
      t.handles.next ≤ t'.handles.next := by
  have g := go_insert (k := k) (D := fun _ => False) (C := C) e t o hz ok
  rw [h] at g
  refine ⟨g.1, ?_, g.2.hs.all, g.2.hs.next⟩
  unfold Token.insertObject at h
  split at h
  · split at h
    · cases h
    · simp only at h
      rcases store_shape (C := C) e t.store t.handles o hz.handle with
        ⟨r, h'⟩ | ⟨F, uid, x, _, hu, hx, ⟨r, _, h'⟩ | ⟨hb, r, _, h'⟩⟩
      · rw [h'] at h; cases h
      · rw [h'] at h; cases h
      · rw [h'] at h
        have a := hs_insert (D := fun _ => False) ok.hs uid
        cases r with
        | error r => cases h
        | ok _ =>
          simp only at h
          injection h with h1 h2
          injection h1 with h1
          rw [← h1, ← h2]
          exact ⟨Nat.le_refl _, uid, (a.2.2.2.1 hb).1⟩
  · have hb1 : t.handles.bump.1 = t.handles.next := rfl
    simp only [hb1] at h
    split at h
    · cases h
    · rename_i uid hu
      have a := hs_insert (D := fun _ => False) ok.hs uid
      generalize t.handles.bump.2.insert t.handles.next uid = b at a h
      obtain ⟨r, h1⟩ := b
      cases r with
      | error r => cases h
      | ok _ =>
        simp only at h
        injection h with h1 h2
        injection h1 with h1
        rw [← h1, ← h2]
        exact ⟨Nat.le_refl _, uid, (a.2.2.2.1 rfl).1⟩

theorem Insd.later {a b c : Token} {n : Nat} (h : Insd a b n)
    (k : ∀ m u, b.handles.get m = some u → c.handles.get m = some u) : Insd a c n :=
  ⟨h.1, h.2.elim fun u hu => ⟨u, k n u hu⟩⟩

theorem Insd.earlier {a b c : Token} {n : Nat} (h : Insd b c n) (k : a.handles.next ≤ b.handles.next) : Insd a c n :=
  ⟨Nat.le_trans k h.1, h.2⟩

theorem insAll_ok {e : Env} {k : Nat} {t t' : Token} {l : List Obj} {i : Nat} {hs : List Nat} (ok : HOk t)
    (h : insertAll C e k t l i = (none, hs, t')) :
    HOk t' ∧ (∀ n ∈ hs, Insd t t' n) ∧ (∀ m u, t.handles.get m = some u → t'.handles.get m = some u) ∧
      t.handles.next ≤ t'.handles.next := by
  induction l generalizing t i hs with
  | nil =>
    injection h with _ h; injection h with h1 h2
    rw [← h1, ← h2]
    exact ⟨ok, fun n hn => (by cases hn), fun _ _ h => h, Nat.le_refl _⟩
  | cons o l ih =>
    unfold insertAll at h
    cases hp : t.insertObject C (e.sub i) k (fresh o) with
    | mk r t1 =>
      rw [hp] at h
      cases r with
      | error r => cases h
      | ok n =>
        simp only at h
        obtain ⟨a1, a2, a3, a4⟩ := ins_ok ok (zero_fresh o) hp
        cases hq : insertAll C e k t1 l (i + 1) with
        | mk r q =>
          obtain ⟨l2, t2⟩ := q
          rw [hq] at h
          injection h with h0 h
          injection h with h1 h2
          subst h0; subst h2
          obtain ⟨b1, b2, b3, b4⟩ := ih a1 hq
          refine ⟨b1, ?_, fun m u h => b3 m u (a3 m u h), Nat.le_trans a4 b4⟩
          intro m hm
          rw [← h1] at hm
          rcases List.mem_cons.1 hm with e | e
          · rw [e]; exact a2.later b3
          · exact (b2 m e).earlier a4

section
variable {M : Mechs} {O : Oracle}

theorem new_genKey {e : Env} {h m n : Nat} {p : Bytes} {tm : Template} {s : Session} {t t' : Token} (ok : HOk t)
    (hr : fnGenKey M C e h m p tm s t = (.ok n, t')) : Insd t t' n := by
  unfold fnGenKey at hr
  repeat' split at hr
  all_goals first | (cases hr; done) | exact (ins_ok ok (zero_fresh _) hr).2.1

theorem new_genPair {e : Env} {h m a b : Nat} {p : Bytes} {pub priv : Template} {s : Session} {t t' : Token}
    (ok : HOk t) (hr : fnGenPair M C e h m p pub priv s t = (.ok (a, b), t')) : Insd t t' a ∧ Insd t t' b := by
  unfold fnGenPair at hr
  repeat' split at hr
  all_goals first | (cases hr; done) | skip
  injection hr with r1 r2
  injection r1 with r1
  injection r1 with r1 r3
  subst r1; subst r2; subst r3
  obtain ⟨a1, a2, a3, a4⟩ := ins_ok ok (zero_fresh _) (by assumption)
  obtain ⟨b1, b2, b3, b4⟩ := ins_ok a1 (zero_fresh _) (by assumption)
  exact ⟨a2.later b3, b2.earlier a4⟩

theorem new_unwrap {e : Env} {h m key n : Nat} {p data : Bytes} {tm : Template} {s : Session} {t t' : Token}
    (ok : HOk t) (hr : fnUnwrap M C e h m p key data tm s t = (.ok n, t')) : Insd t t' n := by
  unfold fnUnwrap at hr
  repeat' split at hr
  all_goals first | (cases hr; done) | exact (ins_ok ok (zero_fresh _) hr).2.1

theorem new_decap {e : Env} {h m key n : Nat} {data : Bytes} {tm : Template} {s : Session} {t t' : Token}
    (ok : HOk t) (hr : fnDecap M C e h m key data tm s t = (.ok n, t')) : Insd t t' n := by
  unfold fnDecap at hr
  repeat' split at hr
  all_goals first | (cases hr; done) | exact (ins_ok ok (zero_fresh _) hr).2.1

theorem new_encap {e : Env} {h m key n : Nat} {tm : Template} {out : Option Nat} {s : Session} {t : Token}
    (ok : HOk t) (hr : n ∈ gives (fnEncap M C e h m key tm out s t).1) :
    Insd t (fnEncap M C e h m key tm out s t).2 n := by
  revert hr
  unfold fnEncap
  repeat' split
  all_goals (intro hr; first | (cases hr; done) | skip)
  rename_i h1
  simp only [gives, List.mem_singleton] at hr
  subst hr
  exact (ins_ok ok (zero_fresh _) h1).2.1

theorem new_derive {e : Env} {h m key : Nat} {p : Bytes} {tm : Template} {s : Session} {t t' : Token} {l : List Nat}
    (ok : HOk t) (hr : fnDerive M C e h m p key tm s t = (.ok l, t')) : ∀ n ∈ l, Insd t t' n := by
  unfold fnDerive at hr
  repeat' split at hr
  all_goals first | (cases hr; done) | skip
  · rename_i h1 _
    injection hr with r1 r2; injection r1 with r1; subst r1; subst r2
    intro n hn
    rw [List.mem_singleton] at hn; subst hn
    exact (ins_ok ok (zero_fresh _) h1).2.1
  · injection hr with r1 r2; injection r1 with r1; subst r1; subst r2
    obtain ⟨a1, a2, a3, a4⟩ := ins_ok ok (zero_fresh _) (by assumption)
    obtain ⟨b1, b2, b3, b4⟩ := insAll_ok a1 (by assumption)
    intro n hn
    rcases List.mem_cons.1 hn with e | e
    · rw [e]; exact a2.later b3
    · exact (b2 n e).earlier a4
  · rename_i h2
    injection hr with r1 r2; injection r1 with r1; subst r1; subst r2
    exact (insAll_ok ok h2).2.1
  · rename_i h1
    injection hr with r1 r2; injection r1 with r1; subst r1; subst r2
    intro n hn
    rw [List.mem_singleton] at hn; subst hn
    exact (ins_ok ok (zero_fresh _) h1).2.1

theorem dup_valid {e : Env} {t t' : Token} {tm : Template} {n : Nat} (ok : HOk t)
    (h : t.isDuplicate e tm = (.ok (some n), t')) : ∃ u, t'.handles.get n = some u := by
  unfold Token.isDuplicate at h
  cases hp : t.store.search e t.handles tm with
  | mk r hs =>
    rw [hp] at h
    simp only at h
    repeat' split at h
    all_goals first | (cases h; done) | skip
    injection h with h1 h2
    injection h1 with h1; injection h1 with h1
    subst h1; subst h2
    unfold Store.search at hp
    split at hp
    · cases hp
    · rename_i l hl
      obtain ⟨_, _, h3⟩ := hs_searchLoop tm l ok.hs
      rw [hp] at h3
      obtain ⟨u, hu, _⟩ := h3 _ rfl _ (List.mem_singleton.2 rfl)
      exact ⟨u, hu⟩

theorem cert_valid {e : Env} {t t' : Token} {o : Obj} {n : Nat} (ok : HOk t)
    (h : t.certDuplicate e o = (.ok (some n), t')) : ∃ u, t'.handles.get n = some u := by
  unfold Token.certDuplicate at h
  split at h
  · exact dup_valid ok h
  · cases h

theorem key_valid {e : Env} {t t' : Token} {o : Obj} {n : Nat} (ok : HOk t)
    (h : t.keyDuplicate e o = (.ok (some n), t')) : ∃ u, t'.handles.get n = some u := by
  unfold Token.keyDuplicate at h
  split at h
  · exact dup_valid ok h
  · cases h

theorem dedup_valid {e : Env} {t t' : Token} {o : Obj} {n : Nat} (ok : HOk t)
    (h : t.checkDedup C e o = (.ok (some n), t')) : t.cfg.dedup ≠ none ∧ ∃ u, t'.handles.get n = some u := by
  unfold Token.checkDedup at h
  extract_lets isCert isKey isTrust updt at h
  clear_value isCert isKey isTrust
  split at h
  · rename_i d hd
    refine ⟨by rw [hd]; exact fun h => (by cases h), ?_⟩
    have key : ∀ (p : Res (Option Nat) × Token), (∀ m, p.1 = .ok (some m) → ∃ u, p.2.handles.get m = some u) →
        (match p with
        | (r, t) => match r with
          | .error r => ((.error r : Res (Option Nat)), t)
          | .ok none => (.ok none, t)
          | .ok (some n) =>
            let updt := Token.swapRemove (o.attrs.map fun a : Attr => CkAttr.mk' a.typ a.value) CKA_UNIQUE_ID
            let (r, st) := t.store.update C (e.sub 1) t.handles n updt
            let t := { t with store := st }
            match r with
            | .error r => (.error r, t)
            | .ok () => (.ok (some n), t)) = (.ok (some n), t') → ∃ u, t'.handles.get n = some u := by
      intro p hp hx
      obtain ⟨r, t1⟩ := p
      simp only at hx
      split at hx
      · cases hx
      · cases hx
      · rename_i m
        obtain ⟨u, hu⟩ := hp m rfl
        split at hx
        · cases hx
        · injection hx with h1 h2
          injection h1 with h1; injection h1 with h1
          subst h1; subst h2
          exact ⟨u, hu⟩
    refine key _ ?_ h
    intro m hm
    cases d <;> simp only at hm ⊢
    · split at hm
      · rename_i c; rw [if_pos c]; exact cert_valid (e := e.sub 0) (o := o) ok (by rw [← hm])
      · cases hm
    · split at hm
      · rename_i c; rw [if_pos c]; exact cert_valid (e := e.sub 0) (o := o) ok (by rw [← hm])
      · cases hm
    · split at hm
      · rename_i c; rw [if_pos c]; exact cert_valid (e := e.sub 0) (o := o) ok (by rw [← hm])
      · rename_i c
        rw [if_neg c]
        split at hm
        · rename_i c; rw [if_pos c]; exact key_valid (e := e.sub 0) (o := o) ok (by rw [← hm])
        · cases hm
  · repeat' split at h
    all_goals cases h

theorem new_create {e : Env} {k n : Nat} {tm : Template} {t t' : Token} (ok : HOk t)
    (h : t.createObject C O e k tm = (.ok n, t')) :
    (∃ u, t'.handles.get n = some u) ∧ (t.cfg.dedup = none → t.handles.next ≤ n) := by
  unfold Token.createObject at h
  split at h
  · cases h
  · rename_i o ho
    have z := zero_create ho
    split at h
    · split at h
      · cases h
      · rename_i hl
        have a := acts_checkDedup (Z := .all) (C := C) (h := 0) (D := fun _ => False) (N := fun _ => False) (e.sub 1) t o z (by simpa using hl)
        cases hp : t.checkDedup C (e.sub 1) o with
        | mk r t1 =>
          rw [hp] at h a
          have g := go_acts a ok
          simp only at h
          split at h
          · cases h
          · injection h with h1 h2
            injection h1 with h1
            subst h1; subst h2
            obtain ⟨a, b⟩ := dedup_valid ok hp
            exact ⟨b, fun hn => absurd hn a⟩
          · obtain ⟨_, b, _, _⟩ := ins_ok g.1 z h
            exact ⟨b.2, fun _ => Nat.le_trans g.2.hs.next b.1⟩
    · obtain ⟨_, b, _, _⟩ := ins_ok ok z h
      exact ⟨b.2, fun _ => b.1⟩

theorem new_copy {e : Env} {k n m : Nat} {tm : Template} {t t' : Token} (ok : HOk t)
    (h : t.copyObject C e k n tm = (.ok m, t')) : Insd t t' m := by
  unfold Token.copyObject at h
  simp only at h
  split at h
  · cases h
  · split at h
    · cases h
    · exact (ins_ok ok (zero_copy (by assumption)) h).2.1

theorem gives_of (r : Res Unit) : gives (Out.of r) = [] := by cases r <;> rfl

theorem gives_ofHandle {r : Res Nat} {n : Nat} (h : n ∈ gives (Out.ofHandle r)) : r = .ok n := by
  cases r with
  | error r => cases h
  | ok m =>
    simp only [Out.ofHandle, gives, List.mem_singleton] at h
    rw [h]

theorem pair_eq {α β : Type} {p : α × β} {a : α} (h : p.1 = a) : p = (a, p.2) := by rw [← h]

theorem gives_sessStep {e : Env} {h n : Nat} {c : SCall} {x : Session} {t : Token} (ok : HOk t)
    (hs : ∀ l, x.search = some l → ∀ n ∈ l, n < t.handles.next) (hg : n ∈ gives (sessStep C O e h c x t).1) :
    n < (sessStep C O e h c x t).2.2.handles.next ∧
      (makesS c = true → (∃ u, (sessStep C O e h c x t).2.2.handles.get n = some u) ∧
        (t.cfg.dedup = none → t.handles.next ≤ n)) := by
  have ok' : HOk (sessStep C O e h c x t).2.2 := by
    have a := acts_sessStep (C := C) (O := O) (h := h) (D := fun _ => True) (N := True) e c x t
      (fun _ _ => trivial) (Z := .all) (fun _ => trivial) (fun _ => trivial) (fun _ _ _ _ _ _ _ _ _ => trivial)
    exact (go_acts a ok).1
  have low : ∀ u, (sessStep C O e h c x t).2.2.handles.get n = some u → n < (sessStep C O e h c x t).2.2.handles.next :=
    fun u hu => (ok'.hs.low n u hu).2
  cases c with
  | createObject tm =>
    have hr : fnCreate C O e h x t tm = (.ok n, (sessStep C O e h (.createObject tm) x t).2.2) :=
      pair_eq (gives_ofHandle (r := (fnCreate C O e h x t tm).1) hg)
    have key : t.createObject C O e h tm = (.ok n, (sessStep C O e h (.createObject tm) x t).2.2) := by
      generalize (sessStep C O e h (.createObject tm) x t).2.2 = t' at hr
      unfold fnCreate at hr
      repeat' split at hr
      all_goals first | (cases hr; done) | exact hr
    obtain ⟨⟨u, hu⟩, b⟩ := new_create ok key
    exact ⟨low u hu, fun _ => ⟨⟨u, hu⟩, b⟩⟩
  | copyObject m tm =>
    have hr : fnCopy C e h x t m tm = (.ok n, (sessStep C O e h (.copyObject m tm) x t).2.2) :=
      pair_eq (gives_ofHandle (r := (fnCopy C e h x t m tm).1) hg)
    have key : t.copyObject C e h m tm = (.ok n, (sessStep C O e h (.copyObject m tm) x t).2.2) := by
      generalize (sessStep C O e h (.copyObject m tm) x t).2.2 = t' at hr
      unfold fnCopy at hr
      repeat' split at hr
      all_goals first | (cases hr; done) | exact hr
    obtain ⟨b, u, hu⟩ := new_copy ok key
    exact ⟨low u hu, fun _ => ⟨⟨u, hu⟩, fun _ => b⟩⟩
  | find max =>
    refine ⟨?_, fun h => by cases h⟩
    have ht : (sessStep C O e h (.find max) x t).2.2 = t := by
      simp only [sessStep]
      generalize x.findObjects max = p
      obtain ⟨r, s⟩ := p
      cases r <;> rfl
    rw [ht]
    simp only [sessStep] at hg
    unfold Session.findObjects at hg
    cases hc : x.checkLogin with
    | error r => rw [hc] at hg; cases hg
    | ok _ =>
      rw [hc] at hg
      cases hx : x.search with
      | none => rw [hx] at hg; cases hg
      | some l =>
        rw [hx] at hg
        exact hs l hx n (List.mem_of_mem_take hg)
  | getSessionInfo => cases hg
  | initPin pin =>
    simp only [sessStep] at hg
    split at hg
    · cases hg
    · rw [gives_of] at hg; cases hg
  | setPin o n => simp only [sessStep, gives_of] at hg; cases hg
  | destroyObject m => simp only [sessStep, gives_of] at hg; cases hg
  | setAttr m tm => simp only [sessStep, gives_of] at hg; cases hg
  | getObjectSize m =>
    simp only [sessStep] at hg
    repeat' split at hg
    all_goals cases hg
  | getAttr m tm =>
    simp only [sessStep] at hg
    repeat' split at hg
    all_goals cases hg
  | findInit tm =>
    simp only [sessStep] at hg
    split at hg
    · cases hg
    · simp only [gives_of] at hg; cases hg
  | findFinal => cases hg

macro "none_s" : tactic => `(tactic| (
  try simp only
  repeat' split
  all_goals first
    | rfl
    | exact gives_of _
    | skip
  all_goals (simp only [Out.ofBytes, Out.ofSize, Out.of]; repeat' split)
  all_goals rfl))

theorem none_feed (e : Env) (k : OpKind) (d : Bytes) (s : Session) : gives (Out.of (fnFeed M e k d s).1) = [] :=
  gives_of _

theorem none_crypt (e : Env) (k : OpKind) (a : Act) (i : OpIn) (s : Session) : gives (fnCrypt M e k a i s).1 = [] := by
  unfold fnCrypt; none_s

theorem none_digest (e : Env) (a : Act) (i : OpIn) (s : Session) : gives (fnDigest M e a i s).1 = [] := by
  unfold fnDigest; none_s

theorem none_sign (e : Env) (a : Act) (i : OpIn) (s : Session) (t : Token) : gives (fnSign M C e a i s t).1 = [] := by
  unfold fnSign; none_s

theorem none_verify (e : Env) (k : OpKind) (a : Act) (i : OpIn) (s : Session) (t : Token) :
    gives (fnVerify M C e k a i s t).1 = [] := by
  unfold fnVerify; none_s

theorem none_message (e : Env) (k : OpKind) (a : Act) (i : OpIn) (s : Session) (t : Token) :
    gives (fnMessage M e k a i s t).1 = [] := by
  unfold fnMessage; none_s

theorem none_dual (e : Env) (k1 k2 : OpKind) (i : OpIn) (s : Session) : gives (fnDual M e k1 k2 i s).1 = [] := by
  unfold fnDual
  simp only
  repeat' split
  all_goals first | rfl | exact none_crypt _ _ _ _ _

theorem none_wrap (e : Env) (m : Nat) (p : Bytes) (w k : Nat) (out : Option Nat) (t : Token) :
    gives (fnWrap M C e m p w k out t) = [] := by
  unfold fnWrap; none_s

theorem none_cancel (f : Nat) (s : Session) : gives (fnCancel f s).1 = [] := by
  unfold fnCancel
  none_s


theorem none_opRun (e : Env) (k : OpKind) (a : Act) (i : OpIn) (s : Session) (t : Token) :
    gives (fnOpRun M C e k a i s t).1 = [] := by
  unfold fnOpRun
  repeat' split
  all_goals first
    | rfl
    | exact gives_of _
    | exact none_message ..
    | exact none_crypt ..
    | exact none_digest ..
    | exact none_sign ..
    | exact none_verify ..

theorem gives_opStep {e : Env} {h n : Nat} {c : OCall} {x : Session} {t : Token} (ok : HOk t)
    (hg : n ∈ gives (opStep M C e h c x t).1) : Insd t (opStep M C e h c x t).2.2 n := by
  cases c with
  | opInit k mech key sig =>
    cases mech with
    | none => cases hg
    | some q =>
      obtain ⟨m, p⟩ := q
      simp only [opStep, gives_of] at hg
      cases hg
  | opRun k a i => simp only [opStep, none_opRun] at hg; cases hg
  | digestKey key => simp only [opStep, gives_of] at hg; cases hg
  | digestEncrypt i => simp only [opStep, none_dual] at hg; cases hg
  | decryptDigest i => simp only [opStep, none_dual] at hg; cases hg
  | signEncrypt i => simp only [opStep, none_dual] at hg; cases hg
  | decryptVerify i => simp only [opStep, none_dual] at hg; cases hg
  | cancel f => simp only [opStep, none_cancel] at hg; cases hg
  | generateKey m p tm =>
    exact new_genKey ok (pair_eq (gives_ofHandle (r := (fnGenKey M C e h m p tm x t).1) hg))
  | generatePair m p pub priv =>
    simp only [opStep] at hg ⊢
    cases hq : fnGenPair M C e h m p pub priv x t with
    | mk r t' =>
      rw [hq] at hg
      cases r with
      | error r => cases hg
      | ok ab =>
        obtain ⟨a, b⟩ := ab
        obtain ⟨h1, h2⟩ := new_genPair ok hq
        simp only [gives, List.mem_cons, List.not_mem_nil, or_false] at hg
        rcases hg with hg | hg
        · rw [hg]; exact h1
        · rw [hg]; exact h2
  | wrap m p w k out => simp only [opStep, none_wrap] at hg; cases hg
  | unwrap m p key data tm =>
    exact new_unwrap ok (pair_eq (gives_ofHandle (r := (fnUnwrap M C e h m p key data tm x t).1) hg))
  | derive m p key tm =>
    simp only [opStep] at hg ⊢
    cases hq : fnDerive M C e h m p key tm x t with
    | mk r t' =>
      rw [hq] at hg
      cases r with
      | error r => cases hg
      | ok l => exact new_derive ok hq n hg
  | encapsulate m key tm out => exact new_encap ok hg
  | decapsulate m key data tm =>
    exact new_decap ok (pair_eq (gives_ofHandle (r := (fnDecap M C e h m key data tm x t).1) hg))

/-- Handles in the answer to a call on a session. -/
theorem step_gives {e : Env} {s : St} {c : Call} {i n : Nat} {sl sl' : Slot} (hi : Inv s) (hv : HInv s)
    (hc : caller c ≠ 0) (hm : AMap.get s.smap (caller c) = some i) (hs : AMap.get s.slots i = some sl)
    (hs' : AMap.get (step M C O e s c).2.slots i = some sl') (hg : n ∈ gives (step M C O e s c).1) :
    n < sl'.token.handles.next ∧ (makes c = true → (∃ u, sl'.token.handles.get n = some u) ∧
      (sl.token.cfg.dedup = none → sl.token.handles.next ≤ n)) := by
  have hv1 := hv i sl hs
  cases c with
  | sess h sc =>
    obtain ⟨sl2, x, hget, hs2, hx⟩ := getSession_live hi hm
    rw [hs] at hs2; injection hs2 with hs2; subst hs2
    have hget : s.getSession h = .ok (i, sl, x) := hget
    simp only [step, hget] at hs' hg
    rw [get_setSlot hs, if_pos rfl] at hs'
    injection hs' with hs'
    rw [← hs']
    exact gives_sessStep hv1.ok (fun l hl => hv1.srch _ x l hx hl) hg
  | op h oc =>
    obtain ⟨sl2, x, hget, hs2, hx⟩ := getSession_live hi hm
    rw [hs] at hs2; injection hs2 with hs2; subst hs2
    have hget : s.getSession h = .ok (i, sl, x) := hget
    simp only [step, hget] at hs' hg
    rw [get_setSlot hs, if_pos rfl] at hs'
    injection hs' with hs'
    rw [← hs']
    have a := gives_opStep hv1.ok hg
    have ok' : HOk (opStep M C e h oc x sl.token).2.2 := by
      have a := acts_opStep (Z := .all) (C := C) (h := h) (D := fun _ => True) (N := True) M e oc x sl.token
        (fun _ _ => trivial) (fun _ => trivial)
      exact (go_acts a hv1.ok).1
    obtain ⟨a1, u, hu⟩ := a
    exact ⟨(ok'.hs.low n u hu).2, fun _ => ⟨⟨u, hu⟩, fun _ => a1⟩⟩
  | _ => exact absurd rfl hc

end
end Kry
