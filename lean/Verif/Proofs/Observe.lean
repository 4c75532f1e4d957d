import Verif.Spec.Session
import Verif.Proofs.Machine

/-! # The observer's notebook agrees with the machine -/

namespace Kry

open Spec

variable {C : Crypto}

/-- Who is logged in to slot `i`. -/
def vlog (s : St) (i : Nat) : Option User :=
  match AMap.get s.slots i with
  | none => none
  | some sl => sl.token.logged

/-- The session `h` of slot `i`. -/
def vsess (s : St) (i h : Nat) : Option (Nat × SState) :=
  match AMap.get s.slots i with
  | none => none
  | some sl => (AMap.get sl.sessions h).map fun x => (x.flags, x.state)

/-- The state a session reports, as far as the notebook tells. -/
def told (o : Obs) (l : Live) : SState :=
  if o.who l.slot = some .so ∧ l.late then .rwUser else expected (o.who l.slot) (isRw l.flags)

structure Agree (s : St) (o : Obs) : Prop where
  map : ∀ h i, (∃ l ∈ o.live, l.h = h ∧ l.slot = i) ↔ AMap.get s.smap h = some i
  uniq : ∀ l ∈ o.live, ∀ l' ∈ o.live, l.h = l'.h → l = l'
  sess : ∀ l ∈ o.live, ∃ st, vsess s l.slot l.h = some (l.flags, st) ∧
    (o.stale l.slot = false → st = told o l)
  who : ∀ i, o.who i = vlog s i
  issued : ∀ n ∈ o.issued, 0 < n ∧ n < s.next

theorem agree_empty (d : List (Nat × Db)) : Agree (St.init d) .empty where
  map := by
    intro h i
    constructor
    · rintro ⟨l, hl, _⟩; cases hl
    · intro h; cases h
  uniq := by intro l hl; cases hl
  sess := by intro l hl; cases hl
  who := fun _ => rfl
  issued := by intro n hn; cases hn

/-- What the notebook is about did not change. -/
theorem agree_congr {s s' : St} {o : Obs} (a : Agree s o) (h1 : s'.smap = s.smap) (h2 : s.next ≤ s'.next)
    (h3 : ∀ i, vlog s' i = vlog s i) (h4 : ∀ i h, vsess s' i h = vsess s i h) : Agree s' o where
  map := by rw [h1]; exact a.map
  uniq := a.uniq
  sess := by intro l hl; rw [h4]; exact a.sess l hl
  who := by intro i; rw [h3]; exact a.who i
  issued := fun n hn => ⟨(a.issued n hn).1, Nat.lt_of_lt_of_le (a.issued n hn).2 h2⟩

theorem vlog_setSlot {s : St} {i : Nat} {sl sl' : Slot} (hs : AMap.get s.slots i = some sl) (j : Nat) :
    vlog (s.setSlot i sl') j = if j = i then sl'.token.logged else vlog s j := by
  unfold vlog St.setSlot
  simp only
  rw [AMap.get_modify]
  by_cases e : i = j
  · subst e; simp [hs]
  · simp [e, Ne.symm e]

theorem vsess_setSlot {s : St} {i : Nat} {sl sl' : Slot} (hs : AMap.get s.slots i = some sl) (j h : Nat) :
    vsess (s.setSlot i sl') j h =
      if j = i then (AMap.get sl'.sessions h).map (fun x => (x.flags, x.state)) else vsess s j h := by
  unfold vsess St.setSlot
  simp only
  rw [AMap.get_modify]
  by_cases e : i = j
  · subst e; simp [hs]
  · simp [e, Ne.symm e]

theorem vlog_at {s : St} {i : Nat} {sl : Slot} (hs : AMap.get s.slots i = some sl) :
    vlog s i = sl.token.logged := by unfold vlog; rw [hs]

theorem vsess_at {s : St} {i : Nat} {sl : Slot} (hs : AMap.get s.slots i = some sl) (h : Nat) :
    vsess s i h = (AMap.get sl.sessions h).map (fun x => (x.flags, x.state)) := by unfold vsess; rw [hs]

/-- A slot replaced by one that looks the same. -/
theorem agree_same {s : St} {o : Obs} {i : Nat} {sl sl' : Slot} (a : Agree s o)
    (hs : AMap.get s.slots i = some sl) (h1 : sl'.token.logged = sl.token.logged)
    (h2 : ∀ h, (AMap.get sl'.sessions h).map (fun x => (x.flags, x.state))
      = (AMap.get sl.sessions h).map (fun x => (x.flags, x.state))) :
    Agree (s.setSlot i sl') o := by
  refine agree_congr a rfl (Nat.le_refl _) ?_ ?_
  · intro j
    rw [vlog_setSlot hs]
    by_cases e : j = i
    · subst e; rw [if_pos rfl, h1, vlog_at hs]
    · rw [if_neg e]
  · intro j h
    rw [vsess_setSlot hs]
    by_cases e : j = i
    · subst e; rw [if_pos rfl, h2, vsess_at hs]
    · rw [if_neg e]

theorem slotsOf_eq {s : St} {o : Obs} (a : Agree s o) {h i : Nat} (hm : AMap.get s.smap h = some i) :
    o.slotsOf h = [i] ∨ ∃ t, o.slotsOf h = i :: t := by
  right
  obtain ⟨l, hl, e1, e2⟩ := (a.map h i).2 hm
  have hin : l ∈ o.live.filter fun l => l.h = h := by simp [hl, e1]
  unfold Obs.slotsOf
  cases hf : o.live.filter fun l => l.h = h with
  | nil => rw [hf] at hin; cases hin
  | cons l' t =>
    have hl' : l' ∈ o.live.filter fun l => l.h = h := by rw [hf]; simp
    simp at hl'
    have := a.uniq l' hl'.1 l hl (hl'.2.trans e1.symm)
    subst this
    exact ⟨t.map Live.slot, by simp [e2]⟩

theorem mem_slotsOf {s : St} {o : Obs} (a : Agree s o) {h i : Nat} (hm : AMap.get s.smap h = some i)
    (j : Nat) : j ∈ o.slotsOf h ↔ j = i := by
  unfold Obs.slotsOf
  rw [List.mem_map]
  constructor
  · rintro ⟨l, hl, e⟩
    simp at hl
    have := (a.map h j).1 ⟨l, hl.1, hl.2, e⟩
    rw [hm] at this; injection this with this; exact this.symm
  · rintro rfl
    obtain ⟨l, hl, e1, e2⟩ := (a.map h j).2 hm
    exact ⟨l, by simp [hl, e1], e2⟩

/-- Somebody logged in or out of slot `i` and every session there changed state accordingly. -/
theorem agree_setWho {s : St} {o : Obs} {h i : Nat} {sl : Slot} {t : Token} {ss : List (Nat × Session)}
    {u : Option User} {st : Bool} (a : Agree s o)
    (hm : AMap.get s.smap h = some i) (hs : AMap.get s.slots i = some sl) (ht : t.logged = u)
    (h2 : ∀ k fl x0, (AMap.get sl.sessions k).map (fun x => (x.flags, x.state)) = some (fl, x0) →
      ∃ x1, (AMap.get ss k).map (fun x => (x.flags, x.state)) = some (fl, x1) ∧
        (st = false → x1 = expected u (isRw fl))) :
    Agree (s.setSlot i ⟨t, ss⟩) (o.setWho h u st) := by
  rcases slotsOf_eq a hm with e | ⟨tl, e⟩
  all_goals
    unfold Obs.setWho
    rw [e]
    simp only
    refine ⟨?_, ?_, ?_, ?_, ?_⟩
    · intro h' i'
      rw [← show AMap.get s.smap h' = some i' ↔ AMap.get (s.setSlot i ⟨t, ss⟩).smap h' = some i' from Iff.rfl,
        ← a.map h' i']
      simp only [List.mem_map]
      constructor
      · rintro ⟨l, ⟨l0, hl0, rfl⟩, h1, h2⟩
        refine ⟨l0, hl0, ?_, ?_⟩
        · split at h1 <;> exact h1
        · split at h2 <;> exact h2
      · rintro ⟨l0, hl0, h1, h2⟩
        refine ⟨_, ⟨l0, hl0, rfl⟩, ?_, ?_⟩
        · split <;> exact h1
        · split <;> exact h2
    · intro l hl l' hl' hh
      simp only [List.mem_map] at hl hl'
      obtain ⟨l0, hl0, rfl⟩ := hl
      obtain ⟨l1, hl1, rfl⟩ := hl'
      have : l0 = l1 := a.uniq l0 hl0 l1 hl1 (by
        repeat' split at hh
        all_goals exact hh)
      rw [this]
    · intro l hl
      simp only [List.mem_map] at hl
      obtain ⟨l0, hl0, rfl⟩ := hl
      obtain ⟨x0, hx0, hx1⟩ := a.sess l0 hl0
      by_cases ei : l0.slot = i
      · simp only [ei, if_true]
        rw [vsess_setSlot hs, if_pos rfl]
        rw [ei, vsess_at hs] at hx0
        obtain ⟨x1, h3, h4⟩ := h2 _ _ _ hx0
        refine ⟨x1, h3, ?_⟩
        intro hst
        simp [setAt] at hst
        rw [h4 hst]
        simp [told, setAt]
      · simp only [ei, if_false]
        rw [vsess_setSlot hs, if_neg ei]
        refine ⟨x0, hx0, ?_⟩
        intro hst
        simp [setAt, ei] at hst
        rw [hx1 hst]
        simp [told, setAt, ei]
    · intro j
      rw [vlog_setSlot hs]
      simp only [setAt]
      rw [a.who j, ht]
    · exact a.issued

theorem isRw_eq (fl : Nat) : (fl &&& CKF_RW_SESSION == CKF_RW_SESSION) = isRw fl := by
  unfold isRw
  cases h : fl.testBit 1 with
  | true =>
    have : fl &&& CKF_RW_SESSION = CKF_RW_SESSION := by
      apply Nat.eq_of_testBit_eq
      intro i
      rw [Nat.testBit_and, show CKF_RW_SESSION = 2 ^ 1 from rfl, Nat.testBit_two_pow]
      by_cases e : 1 = i
      · subst e; simp [h]
      · simp [e]
    simp [this]
  | false =>
    have : fl &&& CKF_RW_SESSION = 0 := by
      apply Nat.eq_of_testBit_eq
      intro i
      rw [Nat.testBit_and, show CKF_RW_SESSION = 2 ^ 1 from rfl, Nat.testBit_two_pow]
      by_cases e : 1 = i
      · subst e; simp [h]
      · simp [e]
    simp [this]

theorem changeState_none (x : Session) :
    (x.changeState none).2.state = expected none x.isWritable := by
  cases hx : x.state <;> simp [Session.changeState, Session.isWritable, hx, expected]

theorem changeState_ok {x : Session} {u : User} (h : (x.changeState (some u)).1 = none) :
    (x.changeState (some u)).2.state = expected (some u) x.isWritable := by
  cases hx : x.state <;> cases u <;> simp [Session.changeState, Session.isWritable, hx, expected] at h ⊢

theorem agree_initSlots {e : Env} {conf : List (Nat × TokCfg)} {s : St} {b : Bool} {k : Nat} {o : Obs}
    (a : Agree s o) : Agree (initSlots C e s b conf k).2 o := by
  induction conf generalizing s b k with
  | nil => exact a
  | cons p conf ih =>
    obtain ⟨i, cfg⟩ := p
    unfold initSlots
    simp only
    split
    · exact a
    · rename_i t ht
      split
      · exact ih a
      · rename_i hn
        apply ih
        refine agree_congr a rfl (Nat.le_refl _) ?_ ?_
        · intro j
          unfold vlog
          simp only
          rw [AMap.get_append]
          cases hj : AMap.get s.slots j with
          | some sl => rfl
          | none =>
            simp only
            rw [AMap.get_cons]
            by_cases e : i = j
            · simp [e, new_logged ht]
            · simp [e]
        · intro j h
          unfold vsess
          simp only
          rw [AMap.get_append]
          cases hj : AMap.get s.slots j with
          | some sl => rfl
          | none =>
            simp only
            rw [AMap.get_cons]
            by_cases e : i = j
            · simp [e]
            · simp [e]

theorem see_other {o : Obs} {c : Call} {a : Out} (h : ∀ i f, c ≠ .openSession i f)
    (h1 : ∀ i, c ≠ .closeSession i) (h2 : ∀ i, c ≠ .closeAll i) (h3 : c ≠ .finalize) (h4 : c ≠ .crash)
    (h5 : ∀ i u p, c ≠ .login i u p) (h6 : ∀ i, c ≠ .logout i) : o.see (c, a) = o := by
  cases c
  case openSession => exact absurd rfl (h _ _)
  case closeSession => exact absurd rfl (h1 _)
  case closeAll => exact absurd rfl (h2 _)
  case finalize => exact absurd rfl h3
  case crash => exact absurd rfl h4
  case login => exact absurd rfl (h5 _ _ _)
  case logout => exact absurd rfl (h6 _)
  all_goals rfl

theorem see_err_open {o : Obs} {i f : Nat} {r : Rv} : o.see (.openSession i f, .err r) = o := rfl
theorem see_err_close {o : Obs} {h : Nat} {r : Rv} : o.see (.closeSession h, .err r) = o := rfl
theorem see_err_closeAll {o : Obs} {i : Nat} {r : Rv} : o.see (.closeAll i, .err r) = o := rfl

theorem agree_open {s : St} {o : Obs} {i fl : Nat} (hi : Inv s) (a : Agree s o) :
    Agree (fnOpen s i fl).2 (o.see (.openSession i fl, (fnOpen s i fl).1)) := by
  unfold fnOpen
  split
  · exact a
  · rename_i sl hg
    obtain ⟨hr, hs⟩ := getSlot_ok hg
    split
    · exact a
    · split
      · exact a
      · split
        · exact a
        · rename_i x hx
          obtain ⟨n1, n2, n3, n4, n5, _⟩ := new_session hx
          have hnext : 0 < s.next := by
            have : s.next ≠ 0 := by simpa [St.ready] using hr
            omega
          have fresh : AMap.get s.smap s.next = none := by
            cases h : AMap.get s.smap s.next with
            | none => rfl
            | some j => have := (hi.bound _ _ h).2; omega
          have hst : x.state = (if sl.token.logged = some .so then .rwUser
              else expected sl.token.logged (isRw fl)) := by
            unfold Session.new at hx
            split at hx
            · cases hx
            · simp only at hx
              cases hu : sl.token.logged with
              | none =>
                rw [hu] at hx; simp only at hx; injection hx with hx; rw [← hx]
                simp only [isRw_eq]
                cases isRw fl <;> rfl
              | some u =>
                cases u with
                | user =>
                  rw [hu] at hx; simp only at hx; injection hx with hx; rw [← hx]
                  simp only [isRw_eq]
                  cases isRw fl <;> rfl
                | so =>
                  rw [hu] at hx; simp only at hx
                  split at hx
                  · cases hx
                  · rename_i st hq
                    injection hx with hx; rw [← hx]
                    simp only [if_true]
                    split at hq
                    · injection hq with hq; exact hq.symm
                    · cases hq
          have nolive : ∀ l ∈ o.live, l.h ≠ s.next := by
            intro l hl e
            have := (a.map l.h l.slot).1 ⟨l, hl, rfl, rfl⟩
            rw [e, fresh] at this; cases this
          show Agree _ { o with live := ⟨s.next, i, fl, o.who i == some .so⟩ :: o.live, issued := s.next :: o.issued }
          refine ⟨?_, ?_, ?_, ?_, ?_⟩
          · intro h j
            show _ ↔ AMap.get (AMap.insert s.smap s.next i) h = some j
            rw [AMap.get_insert]
            by_cases e : s.next = h
            · subst e
              rw [if_pos rfl]
              constructor
              · rintro ⟨l, hl, h1, h2⟩
                rcases List.mem_cons.1 hl with rfl | hl
                · simp at h2; rw [h2]
                · exact absurd h1 (nolive l hl)
              · intro h1; injection h1 with h1; subst h1
                exact ⟨_, List.mem_cons_self, rfl, rfl⟩
            · rw [if_neg e, ← a.map h j]
              constructor
              · rintro ⟨l, hl, h1, h2⟩
                rcases List.mem_cons.1 hl with rfl | hl
                · exact absurd h1 e
                · exact ⟨l, hl, h1, h2⟩
              · rintro ⟨l, hl, h1⟩
                exact ⟨l, List.mem_cons_of_mem _ hl, h1⟩
          · intro l hl l' hl' hh
            rcases List.mem_cons.1 hl with rfl | hl <;> rcases List.mem_cons.1 hl' with rfl | hl'
            · rfl
            · exact absurd hh.symm (nolive l' hl')
            · exact absurd hh (nolive l hl)
            · exact a.uniq l hl l' hl' hh
          · intro l hl
            have vs : ∀ j h, vsess { s.setSlot i { sl with sessions := AMap.insert sl.sessions s.next x } with
                smap := AMap.insert s.smap s.next i, next := s.next + 1 } j h
                = if j = i then (AMap.get (AMap.insert sl.sessions s.next x) h).map (fun x => (x.flags, x.state))
                  else vsess s j h := by
              intro j h
              exact vsess_setSlot hs j h
            rw [vs]
            rcases List.mem_cons.1 hl with rfl | hl
            · simp only [if_true, AMap.get_insert, Option.map_some]
              refine ⟨x.state, by rw [n2], ?_⟩
              intro _
              rw [hst]
              simp only [told, a.who, vlog_at hs]
              cases sl.token.logged with
              | none => simp
              | some u => cases u <;> simp
            · have ht : ∀ (q : List Live) (q' : List Nat), told { o with live := q, issued := q' } l = told o l :=
                fun _ _ => rfl
              rw [ht]
              by_cases e : l.slot = i
              · rw [if_pos e, AMap.get_insert, if_neg (Ne.symm (nolive l hl)), ← vsess_at hs, ← e]
                exact a.sess l hl
              · rw [if_neg e]; exact a.sess l hl
          · intro j
            have vl : ∀ j, vlog { s.setSlot i { sl with sessions := AMap.insert sl.sessions s.next x } with
                smap := AMap.insert s.smap s.next i, next := s.next + 1 } j
                = if j = i then sl.token.logged else vlog s j := by
              intro j
              exact vlog_setSlot hs j
            rw [vl]
            show o.who j = _
            rw [a.who]
            by_cases e : j = i
            · rw [if_pos e, e, vlog_at hs]
            · rw [if_neg e]
          · intro n hn
            show 0 < n ∧ n < s.next + 1
            rcases List.mem_cons.1 hn with rfl | hn
            · exact ⟨hnext, by omega⟩
            · have := a.issued n hn; exact ⟨this.1, by omega⟩

theorem agree_close {e : Env} {s : St} {o : Obs} {h : Nat} (hi : Inv s) (a : Agree s o) :
    Agree (fnClose e s h).2 (o.see (.closeSession h, (fnClose e s h).1)) := by
  unfold fnClose
  split
  · exact a
  · rename_i i sl hg
    obtain ⟨hr, hm, hs⟩ := getSessionSlot_ok hg
    split
    · exact a
    · simp only [Obs.see]
      have ended : (∀ l ∈ o.live.filter (fun l => decide (l.h ≠ h)), l.slot ≠ i) ↔
          AMap.erase sl.sessions h = [] := by
        constructor
        · intro h0
          apply AMap.eq_nil_of_get
          intro k
          rw [AMap.get_erase]
          by_cases e : h = k
          · rw [if_pos e]
          · rw [if_neg e]
            cases hk : AMap.get sl.sessions k with
            | none => rfl
            | some x =>
              obtain ⟨l, hl, e1, e2⟩ := (a.map k i).2 ((hi.link k i).2 ⟨sl, x, hs, hk⟩)
              exact absurd e2 (h0 l (by simp [hl, e1]; exact fun e' => e e'.symm))
        · intro h0 l hl e1
          simp at hl
          have := (a.map l.h i).1 ⟨l, hl.1, rfl, e1⟩
          obtain ⟨sl', x, h1, h2⟩ := (hi.link l.h i).1 this
          rw [hs] at h1; injection h1 with h1; subst h1
          have := AMap.get_erase sl.sessions h l.h
          rw [h0, if_neg (Ne.symm hl.2), h2] at this
          cases this
      generalize ht : (if AMap.erase sl.sessions h = [] then ((sl.token.dropSessionObjects h).logout e).2
        else sl.token.dropSessionObjects h) = t
      have htl : t.logged = if AMap.erase sl.sessions h = [] then none else sl.token.logged := by
        rw [← ht]
        split
        · exact logout_logged _ _
        · exact (dropSess_same _ _).logged
      refine ⟨?_, ?_, ?_, ?_, ?_⟩
      · intro k j
        show _ ↔ AMap.get (AMap.erase s.smap h) k = some j
        rw [AMap.get_erase]
        by_cases e : h = k
        · subst e
          rw [if_pos rfl]
          constructor
          · rintro ⟨l, hl, h1, _⟩; simp at hl; exact absurd h1 hl.2
          · intro h; cases h
        · rw [if_neg e, ← a.map k j]
          constructor
          · rintro ⟨l, hl, h1⟩; simp at hl; exact ⟨l, hl.1, h1⟩
          · rintro ⟨l, hl, h1, h2⟩
            exact ⟨l, by simp [hl, h1]; exact Ne.symm e, h1, h2⟩
      · intro l hl l' hl'
        exact a.uniq l (List.mem_filter.1 hl).1 l' (List.mem_filter.1 hl').1
      · intro l hl
        have hne : ¬ (l.slot ∈ o.slotsOf h ∧ ∀ l' ∈ o.live.filter (fun l => decide (l.h ≠ h)), l'.slot ≠ l.slot) := by
          intro h0; exact h0.2 l hl rfl
        have hl0 := List.mem_filter.1 hl
        obtain ⟨x0, h1, h2⟩ := a.sess l hl0.1
        refine ⟨x0, ?_, ?_⟩
        · have vs : ∀ j k, vsess { s.setSlot i ⟨t, AMap.erase sl.sessions h⟩ with smap := AMap.erase s.smap h } j k
              = if j = i then (AMap.get (AMap.erase sl.sessions h) k).map (fun x => (x.flags, x.state))
                else vsess s j k := fun j k => vsess_setSlot hs j k
          rw [vs]
          by_cases e : l.slot = i
          · have hh : ¬ h = l.h := by have := hl0.2; simp at this; exact Ne.symm this
            rw [if_pos e, AMap.get_erase, if_neg hh, ← vsess_at hs, ← e]
            exact h1
          · rw [if_neg e]; exact h1
        · unfold told at h2 ⊢
          simp only [if_neg hne]
          exact h2
      · intro j
        have vl : ∀ j, vlog { s.setSlot i ⟨t, AMap.erase sl.sessions h⟩ with smap := AMap.erase s.smap h } j
              = if j = i then t.logged else vlog s j := fun j => vlog_setSlot hs j
        rw [vl]
        simp only [mem_slotsOf a hm]
        by_cases e : j = i
        · subst e
          rw [if_pos rfl, htl, a.who, vlog_at hs]
          simp only [true_and, ended]
        · rw [if_neg e, if_neg (fun h => e h.1), a.who]
      · exact a.issued

theorem agree_closeAll {e : Env} {s : St} {o : Obs} {i : Nat} (hi : Inv s) (a : Agree s o) :
    Agree (fnCloseAll e s i).2 (o.see (.closeAll i, (fnCloseAll e s i).1)) := by
  unfold fnCloseAll
  split
  · exact a
  · rename_i hr
    have hr : s.ready = true := by simpa using hr
    simp only
    split
    · rename_i r hg
      refine agree_congr a ?_ (Nat.le_refl _) (fun _ => rfl) (fun _ _ => rfl)
      have hn : AMap.get s.slots i = none := by
        unfold St.getSlot at hg
        have hr' : St.ready { s with smap := AMap.retain s.smap fun _ v => v ≠ i } = true := hr
        rw [hr'] at hg
        simp only [Bool.not_true, Bool.false_eq_true, if_false] at hg
        split at hg
        · cases hg
        · assumption
      show AMap.retain s.smap (fun _ v => decide (v ≠ i)) = s.smap
      unfold AMap.retain
      rw [List.filter_eq_self]
      intro p hp
      simp
      intro e
      have := AMap.get_of_mem hi.smapND (x := p.1) (v := p.2) hp
      obtain ⟨sl, x, h1, _⟩ := (hi.link p.1 p.2).1 this
      rw [e, hn] at h1; cases h1
    · rename_i sl hg
      have hs : AMap.get s.slots i = some sl := (getSlot_ok hg).2
      have ok := hi.slot i sl hs
      split
      · rename_i hin
        -- an uninitialised token has no sessions
        have hnil : sl.sessions = [] := by
          cases hl : sl.sessions with
          | nil => rfl
          | cons p l =>
            have := ok.inited (by rw [hl]; intro h; cases h)
            rw [this] at hin; cases hin
        have hno : ∀ k, AMap.get s.smap k ≠ some i := by
          intro k hk
          obtain ⟨sl', x, h1, h2⟩ := (hi.link k i).1 hk
          rw [hs] at h1; injection h1 with h1; subst h1
          rw [hnil] at h2; cases h2
        have hret : AMap.retain s.smap (fun _ v => decide (v ≠ i)) = s.smap := by
          unfold AMap.retain
          rw [List.filter_eq_self]
          intro p hp
          simp
          intro e
          exact hno p.1 (by rw [← e]; exact AMap.get_of_mem hi.smapND hp)
        refine agree_same (i := i) (sl := sl) (s := { s with smap := AMap.retain s.smap fun _ v => v ≠ i })
          ?_ hs rfl ?_
        · rw [hret]; exact a
        · intro h; rw [hnil]
      · have key : ∀ t : Token, t.logged = none →
            Agree ({ s with smap := AMap.retain s.smap fun _ v => v ≠ i }.setSlot i ⟨t, []⟩)
              (o.see (.closeAll i, .ok)) := by
          intro t ht
          simp only [Obs.see]
          refine ⟨?_, ?_, ?_, ?_, ?_⟩
          · intro k j
            show _ ↔ AMap.get (AMap.retain s.smap fun _ v => v ≠ i) k = some j
            rw [AMap.get_retain _ hi.smapND, Option.filter_eq_some_iff, ← a.map k j]
            constructor
            · rintro ⟨l, hl, h1, h2⟩
              simp at hl
              exact ⟨⟨l, hl.1, h1, h2⟩, by simp; rw [← h2]; exact hl.2⟩
            · rintro ⟨⟨l, hl, h1, h2⟩, h3⟩
              exact ⟨l, by simp [hl]; rw [h2]; simpa using h3, h1, h2⟩
          · intro l hl l' hl'
            exact a.uniq l (List.mem_filter.1 hl).1 l' (List.mem_filter.1 hl').1
          · intro l hl
            simp at hl
            obtain ⟨x0, h1, h2⟩ := a.sess l hl.1
            refine ⟨x0, ?_, ?_⟩
            · rw [vsess_setSlot (s := { s with smap := AMap.retain s.smap fun _ v => v ≠ i }) hs, if_neg hl.2]
              exact h1
            · unfold told at h2 ⊢
              simp only [setAt, if_neg hl.2]
              exact h2
          · intro j
            rw [vlog_setSlot (s := { s with smap := AMap.retain s.smap fun _ v => v ≠ i }) hs]
            simp only [setAt]
            rw [ht, a.who]
            rfl
          · exact a.issued
        exact key _ (logout_logged _ _)

theorem see_login_err {o : Obs} {h ut : Nat} {p : Bytes} {r : Rv} (hc : ut ≠ CKU_CONTEXT_SPECIFIC) :
    o.see (.login h ut p, .err r) = o := by
  cases r
  case pinLocked => simp only [Obs.see]; rw [if_neg hc]
  all_goals rfl

theorem see_login_err' {o : Obs} {h ut : Nat} {p : Bytes} {r : Rv} (hc : r ≠ .pinLocked) :
    o.see (.login h ut p, .err r) = o := by
  cases r
  case pinLocked => exact absurd rfl hc
  all_goals rfl

theorem see_logout_err {o : Obs} {h : Nat} {r : Rv} (hc : r ≠ .generalError) :
    o.see (.logout h, .err r) = o := by
  cases r
  case generalError => exact absurd rfl hc
  all_goals rfl

theorem invalidate_states {ss : List (Nat × Session)}
    (hw : ∀ k y, AMap.get ss k = some y → y.isWritable = (y.flags &&& CKF_RW_SESSION == CKF_RW_SESSION))
    (k fl : Nat) (x0 : SState)
    (h : (AMap.get ss k).map (fun x => (x.flags, x.state)) = some (fl, x0)) :
    (AMap.get (Slot.invalidate ss) k).map (fun x => (x.flags, x.state)) = some (fl, expected none (isRw fl)) := by
  rw [get_invalidate]
  cases hk : AMap.get ss k with
  | none => rw [hk] at h; cases h
  | some x =>
    rw [hk] at h
    simp only [Option.map_some, Option.some.injEq, Prod.mk.injEq] at h
    simp only [Option.map_some, Option.some.injEq, Prod.mk.injEq, (changeState_same x none).2.1, h.1,
      true_and]
    rw [changeState_none, hw k x hk, h.1, isRw_eq]

theorem login_ok_logged {e : Env} {t : Token} {ut : Nat} {pin : Bytes} (hc : ut ≠ CKU_CONTEXT_SPECIFIC) :
    (∃ r, (t.login C e ut pin).1 = .error r ∧ (t.login C e ut pin).2.logged = t.logged) ∨
    (∃ u, Token.userOf ut = some u ∧ t.logged = none ∧ (t.login C e ut pin).1 = .ok () ∧
      (t.login C e ut pin).2.logged = some u) := by
  unfold Token.login
  split
  · rename_i u hu
    split
    · exact .inl ⟨_, rfl, rfl⟩
    · split
      · exact .inl ⟨_, rfl, rfl⟩
      · rename_i hn
        have hn : t.logged = none := by simpa using hn
        unfold Token.authUser
        generalize t.store.authUser C e u pin false = p
        obtain ⟨r, f, st⟩ := p
        cases r with
        | error r => exact .inl ⟨r, rfl, rfl⟩
        | ok v => exact .inr ⟨u, by rw [hu], hn, rfl, rfl⟩
  · rw [if_neg hc]; exact .inl ⟨_, rfl, rfl⟩

theorem login_ctx_logged {e : Env} {t : Token} {pin : Bytes} :
    (t.login C e CKU_CONTEXT_SPECIFIC pin).2.logged = t.logged := by
  unfold Token.login
  have : Token.userOf CKU_CONTEXT_SPECIFIC = none := by decide
  rw [this]
  simp only [if_true]
  cases hl : t.logged with
  | none => exact hl
  | some u => simp only; rw [authUser_check_logged]; exact hl

theorem userOf_inv {ut : Nat} {u : User} (h : Token.userOf ut = some u) :
    (u = .so ∧ ut = CKU_SO) ∨ (u = .user ∧ ut = CKU_USER) := by
  unfold Token.userOf at h
  split at h
  · injection h with h; exact .inl ⟨h.symm, by assumption⟩
  · split at h
    · injection h with h; exact .inr ⟨h.symm, by assumption⟩
    · cases h

theorem see_login_ok {o : Obs} {h ut : Nat} {p : Bytes} {u : User} (hu : Token.userOf ut = some u) :
    o.see (.login h ut p, .ok) = o.setWho h (some u) false := by
  rcases userOf_inv hu with ⟨rfl, rfl⟩ | ⟨rfl, rfl⟩
  · simp [Obs.see]
  · simp [Obs.see]

theorem getSession_err {s : St} {h : Nat} {r : Rv} (hg : s.getSession h = .error r) :
    r = .cryptokiNotInitialized ∨ r = .sessionHandleInvalid ∨ r = .slotIdInvalid := by
  unfold St.getSession St.getSessionSlot St.getSlot at hg
  cases hr : s.ready
  · simp [hr] at hg; exact .inl hg.symm
  · simp only [hr, Bool.not_true, Bool.false_eq_true, if_false] at hg
    cases hm : AMap.get s.smap h with
    | none => simp [hm] at hg; exact .inr (.inl hg.symm)
    | some i =>
      simp only [hm] at hg
      cases hs : AMap.get s.slots i with
      | none => simp [hs] at hg; exact .inr (.inr hg.symm)
      | some sl =>
        simp only [hs] at hg
        cases hx : AMap.get sl.sessions h with
        | none => simp [hx] at hg; exact .inr (.inl hg.symm)
        | some x => simp [hx] at hg

theorem agree_login {e : Env} {s : St} {o : Obs} {h ut : Nat} {pin : Bytes} (hi : Inv s) (a : Agree s o) :
    Agree (fnLogin C e s h ut pin).2 (o.see (.login h ut pin, (fnLogin C e s h ut pin).1)) := by
  unfold fnLogin
  split
  · rename_i r hg
    rw [see_login_err']
    · exact a
    · rintro rfl; rcases getSession_err hg with h | h | h <;> cases h
  · rename_i i sl x hg
    obtain ⟨hr, hm, hs, hx⟩ := getSession_ok hg
    have ok := hi.slot i sl hs
    split
    · rw [see_login_err' (by decide)]; exact a
    · split
      · rw [see_login_err' (by decide)]; exact a
      · split
        · rename_i hctx
          subst hctx
          split
          · exact a
          · have b := login_ctx_logged (C := C) (e := e.sub 0) (t := sl.token) (pin := pin)
            generalize sl.token.login C (e.sub 0) CKU_CONTEXT_SPECIFIC pin = p at b ⊢
            obtain ⟨r, t⟩ := p
            simp only at b ⊢
            cases r with
            | ok _ =>
              have : o.see (.login h CKU_CONTEXT_SPECIFIC pin, .ok) = o := rfl
              rw [this]
              refine agree_same a hs b ?_
              intro k
              simp only
              rw [AMap.get_modify]
              by_cases e : h = k
              · rw [if_pos e]; cases AMap.get sl.sessions k <;> rfl
              · rw [if_neg e]
            | error r =>
              simp only
              split
              · rename_i hr
                subst hr
                have : o.see (.login h CKU_CONTEXT_SPECIFIC pin, .err .pinLocked) = o.setWho h none false := rfl
                rw [this]
                refine agree_setWho a hm hs (logout_logged _ _) ?_
                intro k fl x0 hk
                exact ⟨_, invalidate_states ok.rw k fl x0 hk, fun _ => rfl⟩
              · rename_i hr
                rw [see_login_err' hr]
                exact agree_same a hs b (fun _ => rfl)
        · rename_i hctx
          have b := login_ok_logged (C := C) (e := e.sub 0) (t := sl.token) (pin := pin) hctx
          generalize sl.token.login C (e.sub 0) ut pin = p at b ⊢
          obtain ⟨r, t⟩ := p
          simp only at b ⊢
          rcases b with ⟨r', rfl, b⟩ | ⟨u, hu, hl, rfl, b⟩
          · simp only
            rw [see_login_err hctx]
            exact agree_same a hs b (fun _ => rfl)
          · simp only
            generalize hc : Slot.changeLoop (Token.userOf ut) sl.sessions = q
            obtain ⟨r, l⟩ := q
            cases r with
            | none =>
              simp only
              rw [see_login_ok hu]
              refine agree_setWho a hm hs b ?_
              intro k fl x0 hk
              rw [hu] at hc
              obtain ⟨h1, h2⟩ := get_changeLoop_ok hc k
              rw [h1]
              cases hk' : AMap.get sl.sessions k with
              | none => rw [hk'] at hk; cases hk
              | some y =>
                rw [hk'] at hk
                simp only [Option.map_some, Option.some.injEq, Prod.mk.injEq] at hk
                simp only [Option.map_some, Option.some.injEq, Prod.mk.injEq, (changeState_same y _).2.1, hk.1,
                  true_and]
                refine ⟨_, rfl, ?_⟩
                intro _
                rw [changeState_ok (h2 y hk'), ok.rw k y hk', hk.1, isRw_eq]
            | some r =>
              simp only
              rw [see_login_err hctx]
              -- the sessions are made public again, which is what they already had to be
              refine ⟨a.map, a.uniq, ?_, ?_, a.issued⟩
              · intro l0 hl0
                obtain ⟨x0, h1, h2⟩ := a.sess l0 hl0
                rw [vsess_setSlot hs]
                by_cases ei : l0.slot = i
                · rw [if_pos ei]
                  have sim := sim_changeLoop hc
                  have hw : ∀ k y, AMap.get l k = some y →
                      y.isWritable = (y.flags &&& CKF_RW_SESSION == CKF_RW_SESSION) := by
                    intro k y hy
                    obtain ⟨y0, h1, h2, h3, h4⟩ := sim.2 k y hy
                    rw [h4, h3]; exact ok.rw k y0 h1
                  rw [ei, vsess_at hs] at h1
                  have hx1 : ∃ x1, (AMap.get l l0.h).map (fun x => (x.flags, x.state)) = some (l0.flags, x1) := by
                    rcases get_changeLoop hc l0.h with g | g
                    · rw [g]; exact ⟨x0, h1⟩
                    · rw [g]
                      cases hk' : AMap.get sl.sessions l0.h with
                      | none => rw [hk'] at h1; cases h1
                      | some y =>
                        rw [hk'] at h1
                        simp only [Option.map_some, Option.some.injEq, Prod.mk.injEq] at h1
                        simp only [Option.map_some, (changeState_same y _).2.1, h1.1]
                        exact ⟨_, rfl⟩
                  obtain ⟨x1, hx1⟩ := hx1
                  refine ⟨_, invalidate_states hw _ _ _ hx1, ?_⟩
                  intro _
                  have : o.who l0.slot = none := by rw [a.who, ei, vlog_at hs, hl]
                  simp [told, this]
                · rw [if_neg ei]; exact ⟨x0, h1, h2⟩
              · intro j
                rw [vlog_setSlot hs, a.who]
                by_cases ei : j = i
                · subst ei; rw [if_pos rfl, vlog_at hs, hl]; exact (logout_logged _ _).symm
                · rw [if_neg ei]
theorem agree_logout {e : Env} {s : St} {o : Obs} {h : Nat} (hi : Inv s) (a : Agree s o) :
    Agree (fnLogout e s h).2 (o.see (.logout h, (fnLogout e s h).1)) := by
  unfold fnLogout
  split
  · rename_i r hg
    rw [see_logout_err]
    · exact a
    · rintro rfl; rcases getSession_err hg with h | h | h <;> cases h
  · rename_i i sl x hg
    obtain ⟨hr, hm, hs, hx⟩ := getSession_ok hg
    have ok := hi.slot i sl hs
    split
    · exact a
    · have b := logout_logged e sl.token
      have c : (sl.token.logout e).1 = .ok () ∨ (sl.token.logout e).1 = .error .generalError ∨
          ((sl.token.logout e).1 = .error .userNotLoggedIn ∧ sl.token.logged = none) := by
        unfold Token.logout
        cases hl : sl.token.logged with
        | none => exact .inr (.inr ⟨rfl, rfl⟩)
        | some u =>
          simp only
          generalize Store.unauthUser _ _ _ = p
          obtain ⟨r, st⟩ := p
          cases r
          · exact .inr (.inl rfl)
          · exact .inl rfl
      generalize sl.token.logout e = p at b c ⊢
      obtain ⟨r, t⟩ := p
      simp only at b c ⊢
      rcases c with rfl | rfl | ⟨rfl, c⟩
      · simp only
        have : o.see (.logout h, .ok) = o.setWho h none false := rfl
        rw [this]
        exact agree_setWho a hm hs b (fun k fl x0 hk => ⟨_, invalidate_states ok.rw k fl x0 hk, fun _ => rfl⟩)
      · simp only
        have : o.see (.logout h, .err .generalError) = o.setWho h none true := rfl
        rw [this]
        exact agree_setWho a hm hs b (fun k fl x0 hk => ⟨x0, hk, fun h => by cases h⟩)
      · simp only
        rw [see_logout_err (by decide)]
        exact agree_same a hs (b.trans c.symm) (fun _ => rfl)

theorem agree_step (M : Mechs) (O : Oracle) (e : Env) {s : St} {o : Obs} (c : Call) (hi : Inv s)
    (a : Agree s o) : Agree (step M C O e s c).2 (o.see (c, (step M C O e s c).1)) := by
  cases c with
  | «initialize» conf =>
    have : ∀ x, o.see (.initialize conf, x) = o := fun _ => rfl
    rw [this]
    show Agree (fnInitialize C e s conf).2 o
    unfold fnInitialize
    cases hr : s.ready
    · have h0 : s.next = 0 := by simpa [St.ready] using hr
      have := hi.off h0
      simp only [Bool.false_eq_true, if_false]
      apply agree_initSlots
      refine agree_congr a this.2.symm (by simp [h0]) ?_ ?_
      · intro i; unfold vlog; rw [this.1]
      · intro i h; unfold vsess; rw [this.1]
    · simp only [if_true]
      exact agree_initSlots a
  | finalize =>
    show Agree (fnFinalize s).2 (o.see (.finalize, (fnFinalize s).1))
    unfold fnFinalize
    split
    · exact a
    · exact agree_empty _
  | openSession i f => exact agree_open hi a
  | closeSession h => exact agree_close hi a
  | closeAll i => exact agree_closeAll hi a
  | login h ut pin => exact agree_login hi a
  | logout h => exact agree_logout hi a
  | initToken i pin l =>
    have : ∀ x, o.see (.initToken i pin l, x) = o := fun _ => rfl
    rw [this]
    show Agree (fnInitToken C e s i pin l).2 o
    unfold fnInitToken
    split
    · exact a
    · rename_i sl hg
      obtain ⟨hr, hs⟩ := getSlot_ok hg
      split
      · exact a
      · rename_i hn
        have hn : sl.sessions = [] := by simpa using hn
        have ok := hi.slot i sl hs
        have key : ∀ lab, Agree (s.setSlot i ⟨(sl.token.initToken C e pin lab).2, sl.sessions⟩) o := by
          intro lab
          refine agree_same a hs ?_ (fun _ => rfl)
          show (sl.token.initToken C e pin lab).2.logged = _
          rw [initToken_logged e sl.token pin lab (ok.out hn), ok.out hn]
        simp only
        repeat' split
        all_goals exact key _
  | getTokenInfo i =>
    have : ∀ x, o.see (.getTokenInfo i, x) = o := fun _ => rfl
    rw [this]
    unfold step
    simp only
    split <;> exact a
  | sess h c =>
    have : ∀ x, o.see (.sess h c, x) = o := fun _ => rfl
    rw [this]
    unfold step
    simp only
    split
    · exact a
    · rename_i i sl x hg
      obtain ⟨hr, hm, hs, hx⟩ := getSession_ok hg
      have b := sessStep_sameS (C := C) O e h c x sl.token
      have b2 := acts_same (acts_sessStep (C := C) (D := fun _ => True) (N := True) O e c x sl.token (fun _ _ => trivial) (Z := .all) (fun _ => trivial) (fun _ => trivial) (fun _ _ _ _ _ _ _ _ _ => trivial) (h := h))
      refine agree_same a hs b2.logged ?_
      intro k
      simp only
      rw [AMap.get_modify]
      by_cases e : h = k
      · subst e; rw [if_pos rfl, hx]; simp [b.flags, b.state]
      · rw [if_neg e]
  | op h c =>
    have : ∀ x, o.see (.op h c, x) = o := fun _ => rfl
    rw [this]
    unfold step
    simp only
    split
    · exact a
    · rename_i i sl x hg
      obtain ⟨hr, hm, hs, hx⟩ := getSession_ok hg
      have b := opStep_sameS (C := C) M e h c x sl.token
      have b2 := acts_same (acts_opStep (Z := .all) (C := C) (D := fun _ => True) (N := True) M e c x sl.token (fun _ _ => trivial) (fun _ => trivial) (h := h))
      refine agree_same a hs b2.logged ?_
      intro k
      simp only
      rw [AMap.get_modify]
      by_cases e : h = k
      · subst e; rw [if_pos rfl, hx]; simp [b.flags, b.state]
      · rw [if_neg e]
  | crash => exact agree_empty _

theorem agree_run (M : Mechs) (O : Oracle) (tr : Trace) {s : St} {o : Obs} (hi : Inv s) (a : Agree s o) :
    Agree (run M C O s tr) ((hist M C O s tr).foldl Obs.see o) := by
  induction tr generalizing s o with
  | nil => exact a
  | cons p tr ih =>
    obtain ⟨e, c⟩ := p
    exact ih (inv_step M O e s c hi) (agree_step M O e c hi a)

/-- Every reachable state agrees with the notebook of its history. -/
theorem agree_reach (M : Mechs) (O : Oracle) (d : List (Nat × Db)) (tr : Trace) :
    Agree (run M C O (St.init d) tr) (observe (hist M C O (St.init d) tr)) :=
  agree_run M O tr (inv_empty d 0) (agree_empty d)

end Kry
