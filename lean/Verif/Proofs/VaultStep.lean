import Verif.Proofs.VaultFrame
import Verif.Proofs.Observe
import Verif.Proofs.Path

/-! # What one call does to PINs and master key of a slot -/

namespace Kry
open Spec

variable {C : Crypto}

/-- The database of slot `i`, in use or on disk. -/
def dbAt (s : St) (i : Nat) : Db :=
  match AMap.get s.slots i with
  | some sl => sl.token.store.db
  | none => match AMap.get s.disks i with
    | some d => d
    | none => Db.empty

def SlotV (C : Crypto) (s : St) (i : Nat) (K : Bytes) (v : Nat) (π : Pins) : Prop :=
  DbVault C (dbAt s i) K v π ∧ ∀ sl, AMap.get s.slots i = some sl → TVault C sl.token K v π

/-- Slot `i` is known to hold an initialised token. -/
def KnownAt (s : St) (i : Nat) : Prop :=
  Inited (dbAt s i) ∧ ∀ sl, AMap.get s.slots i = some sl → sl.token.isInitialized = true

theorem slotV_some {s : St} {i : Nat} {sl : Slot} {K : Bytes} {v : Nat} {π : Pins}
    (hs : AMap.get s.slots i = some sl) (h : TVault C sl.token K v π) : SlotV C s i K v π := by
  refine ⟨?_, fun sl' h' => ?_⟩
  · unfold dbAt; rw [hs]; exact h.db
  · rw [hs] at h'; injection h' with h'; subst h'; exact h

theorem knownAt_some {s : St} {i : Nat} {sl : Slot} (hs : AMap.get s.slots i = some sl)
    (h1 : Inited sl.token.store.db) (h2 : sl.token.isInitialized = true) : KnownAt s i := by
  refine ⟨?_, fun sl' h' => ?_⟩
  · unfold dbAt; rw [hs]; exact h1
  · rw [hs] at h'; injection h' with h'; subst h'; exact h2

theorem dbAt_some {s : St} {i : Nat} {sl : Slot} (hs : AMap.get s.slots i = some sl) :
    dbAt s i = sl.token.store.db := by unfold dbAt; rw [hs]

/-- Effects of C_InitToken on the PIN records. -/
inductive InitEff (C : Crypto) (e : Env) (ini : Bool) (π : Pins) (pin : Bytes) : Out → Pins → Prop where
  | refused {out : Out} {π' : Pins} (hi : ini = true) (ho : out ≠ .ok) (hs : samePins π π')
      (hq : quiet e → ∃ r, (.error r, π') = authP C π .so pin ∧
        out = .err (if r = .pinLocked ∨ r = .pinIncorrect then r else .generalError)) : InitEff C e ini π pin out π'
  | kept {π' : Pins} (hr : ini = true → Right C π .so pin) (hs : samePins π π') : InitEff C e ini π pin (.err .generalError) π'
  | wiped {π' : Pins} (hr : ini = true → Right C π .so pin) (hπ : π' = noPins ∨ π' = onlySo [] ∨ π' = onlySo pin) :
      InitEff C e ini π pin (.err .generalError) π'
  | done (hr : ini = true → Right C π .so pin) : InitEff C e ini π pin .ok (onlySo pin)

/-- Effects of a call on the PIN records of slot `i`; `o` is the notebook before the call and `ini` tells
whether the token counts as initialised. -/
inductive PinEff (C : Crypto) (e : Env) (o : Obs) (i : Nat) (ini : Bool) (π : Pins) : Call → Out → Pins → Prop where
  | still {c : Call} {out : Out}
      (h1 : ∀ u pin, presents o c = some (i, u, pin) → out ≠ .ok ∧ out ≠ .err .pinIncorrect ∧ out ≠ .err .pinLocked ∧
        (∀ p l, c = .initToken i p l → out ≠ .err .generalError))
      (h2 : ∀ h pin t, c = .sess h (.initPin pin) → o.slotsOf h = i :: t → out ≠ .ok) :
      PinEff C e o i ini π c out π
  | login {h ut : Nat} {u : User} {pin : Bytes} {out : Out} {π' : Pins}
      (hp : presents o (.login h ut pin) = some (i, u, pin)) (hs : samePins π π') (hr : out = .ok → Right C π u pin)
      (hq : quiet e → o.stale i = false → ∃ r, out = Out.of r ∧ (r, π') = authP C π u pin) :
      PinEff C e o i ini π (.login h ut pin) out π'
  | setPin {h : Nat} {u : User} {old new : Bytes} {out : Out} {π' : Pins}
      (hp : presents o (.sess h (.setPin old new)) = some (i, u, old)) (hn : out ≠ .ok → samePins π π')
      (hok : out = .ok → Right C π u old ∧ ∃ π1, samePins π π1 ∧ π' = setU π1 u (some (new, 0)))
      (hq : quiet e → (∃ r, out = Out.of r ∧ (r, π') = setPinP C π u new old) ∨
        ∃ r, out = .err r ∧ r ≠ .pinIncorrect ∧ r ≠ .pinLocked ∧ π' = π) :
      PinEff C e o i ini π (.sess h (.setPin old new)) out π'
  | initPin {h : Nat} {pin : Bytes} {t : List Nat} {out : Out} {π' : Pins} (hs : o.slotsOf h = i :: t)
      (hn : out ≠ .ok → samePins π π' ∧ (quiet e → π' = π))
      (hok : out = .ok → o.who i = some .so ∧ ∃ π1, samePins π π1 ∧ (quiet e → π1 = π) ∧
        π' = setU π1 .user (some (pin, 0))) :
      PinEff C e o i ini π (.sess h (.initPin pin)) out π'
  | initToken {pin : Bytes} {l : Option Bytes} {out : Out} {π' : Pins} (h : InitEff C e ini π pin out π') :
      PinEff C e o i ini π (.initToken i pin l) out π'

theorem presents_login {s : St} {o : Obs} (a : Kry.Agree s o) {h i ut : Nat} {pin : Bytes} (hm : AMap.get s.smap h = some i) :
    presents o (.login h ut pin) = (target (vlog s i) ut).map fun u => (i, u, pin) := by
  obtain ⟨t, ht⟩ : ∃ t, o.slotsOf h = i :: t := by
    rcases slotsOf_eq a hm with e | e
    · exact ⟨[], e⟩
    · exact e
  unfold presents target Token.userOf
  simp only [ht, a.who i]
  by_cases h0 : ut = CKU_SO
  · subst h0
    cases vlog s i <;> simp
  · by_cases h1 : ut = CKU_USER
    · subst h1
      cases vlog s i <;> simp <;> decide
    · by_cases h2 : ut = CKU_CONTEXT_SPECIFIC
      · subst h2
        cases vlog s i <;> simp
      · cases vlog s i <;> simp [h0, h1, h2]

theorem login_none {e : Env} {t : Token} {ut : Nat} {pin : Bytes} (h : target t.logged ut = none) :
    ∃ r, t.login C e ut pin = (.error r, t) ∧ r ≠ .pinIncorrect ∧ r ≠ .pinLocked := by
  unfold target at h
  unfold Token.login
  cases hu : Token.userOf ut with
  | some u =>
    rw [hu] at h
    simp only at h ⊢
    cases hl : t.logged with
    | none => rw [hl] at h; cases h
    | some w =>
      simp only [Option.some.injEq, ne_eq, reduceCtorEq, not_false_eq_true, if_true]
      split <;> exact ⟨_, rfl, by decide, by decide⟩
  | none =>
    rw [hu] at h
    simp only at h ⊢
    split
    · rename_i hc
      rw [if_pos hc] at h
      rw [h]
      exact ⟨_, rfl, by decide, by decide⟩
    · exact ⟨_, rfl, by decide, by decide⟩

/-- With sessions in the expected state nobody refuses a login. -/
theorem changeLoop_none {u : User} {l : List (Nat × Session)}
    (h : ∀ p ∈ l, p.2.state = .rwPublic ∨ (p.2.state = .roPublic ∧ u = .user)) :
    (Slot.changeLoop (some u) l).1 = none := by
  induction l with
  | nil => rfl
  | cons p l ih =>
    obtain ⟨k, x⟩ := p
    unfold Slot.changeLoop
    have := ih fun q hq => h q (List.mem_cons_of_mem _ hq)
    have hx := h (k, x) List.mem_cons_self
    simp only at hx
    unfold Session.changeState
    rcases hx with hx | ⟨hx, rfl⟩
    · rw [hx]
      cases u <;> exact this
    · rw [hx]
      exact this

/-- What one step does to slot `i`. -/
def StepOut (C : Crypto) (e : Env) (o : Obs) (i : Nat) (s : St) (c : Call) (x : Out × St) (K : Bytes) (v : Nat) (π : Pins) :
    Prop :=
  ∃ K' v' π' ini, SlotV C x.2 i K' v' π' ∧ (KnownAt s i → ini = true) ∧ PinEff C e o i ini π c x.1 π' ∧
    (KnownAt s i → KnownAt x.2 i ∨ ∃ p l, c = .initToken i p l ∧ x.1 = .err .generalError) ∧
    (∀ p l, c = .initToken i p l → x.1 = .ok → KnownAt x.2 i) ∧
    ((∀ p l, c ≠ .initToken i p l) → K' = K ∧ v' = v)

theorem out_of {e : Env} {o : Obs} {i : Nat} {s : St} {c : Call} {x : Out × St} {π π' : Pins} {K : Bytes} {v : Nat}
    {sl sl' : Slot} (hs : AMap.get s.slots i = some sl) (hs' : AMap.get x.2.slots i = some sl')
    (hv : TVault C sl'.token K v π') (hI : Inited sl.token.store.db → Inited sl'.token.store.db)
    (hi : sl'.token.isInitialized = sl.token.isInitialized)
    (eff : PinEff C e o i sl.token.isInitialized π c x.1 π') (hc : ∀ p l, c ≠ .initToken i p l) :
    StepOut C e o i s c x K v π :=
  ⟨K, v, π', _, slotV_some hs' hv, fun h => h.2 sl hs, eff,
    fun h => .inl (knownAt_some hs' (hI (by have := h.1; rwa [dbAt_some hs] at this)) (hi.trans (h.2 sl hs))),
    fun p l h => absurd h (hc p l), fun _ => ⟨rfl, rfl⟩⟩

theorem out_same {e : Env} {o : Obs} {i : Nat} {s : St} {c : Call} {x : Out × St} {π : Pins} {K : Bytes} {v : Nat}
    (hv : SlotV C s i K v π) (h1 : AMap.get x.2.slots i = AMap.get s.slots i) (h2 : AMap.get x.2.disks i = AMap.get s.disks i)
    (eff : ∀ ini, PinEff C e o i ini π c x.1 π) (hc : ∀ p l, c = .initToken i p l → x.1 ≠ .ok) :
    StepOut C e o i s c x K v π := by
  have hd : dbAt x.2 i = dbAt s i := by unfold dbAt; rw [h1, h2]
  exact ⟨K, v, π, true, ⟨hd ▸ hv.1, h1 ▸ hv.2⟩, fun _ => rfl, eff true,
    fun h => .inl ⟨hd ▸ h.1, h1 ▸ h.2⟩, fun p l h hx => absurd hx (hc p l h), fun _ => ⟨rfl, rfl⟩⟩

theorem eff_still {e : Env} {o : Obs} {i : Nat} {π : Pins} {c : Call} {out : Out} {ini : Bool}
    (h1 : ∀ h ut pin, c ≠ .login h ut pin) (h2 : ∀ h p q, c ≠ .sess h (.setPin p q)) (h3 : ∀ h p, c ≠ .sess h (.initPin p))
    (h4 : ∀ p l, c ≠ .initToken i p l) : PinEff C e o i ini π c out π := by
  refine .still ?_ fun h pin t hc => absurd hc (h3 h pin)
  intro u pin hp
  exfalso
  unfold presents at hp
  split at hp
  · exact h1 _ _ _ rfl
  · exact h2 _ _ _ rfl
  · injection hp with hp; injection hp with hp; subst hp; exact h4 _ _ rfl
  · cases hp

/-- An answer that is none of a success and a refused PIN. -/
theorem eff_err {e : Env} {o : Obs} {i : Nat} {π : Pins} {c : Call} {r : Rv} {ini : Bool}
    (h1 : r ≠ .pinIncorrect) (h2 : r ≠ .pinLocked) (h3 : (∃ p l, c = .initToken i p l) → r ≠ .generalError) :
    PinEff C e o i ini π c (.err r) π :=
  .still (fun _ _ _ => ⟨nofun, fun h => h1 (by injection h), fun h => h2 (by injection h), fun p l hc h =>
    h3 ⟨p, l, hc⟩ (by injection h)⟩) fun _ _ _ _ _ => nofun

/-- A call on another slot. -/
theorem eff_other {e : Env} {o : Obs} {s : St} {i j : Nat} {π : Pins} {c : Call} {out : Out} {ini : Bool}
    (h1 : ∀ i' u pin, presents o c = some (i', u, pin) → i' = j)
    (h2 : ∀ h p, c = .sess h (.initPin p) → ∃ t, o.slotsOf h = j :: t) (hne : j ≠ i) : PinEff C e o i ini π c out π := by
  refine .still ?_ ?_
  · intro u pin hp
    exact absurd (h1 _ _ _ hp).symm hne
  · intro h p t hc hs
    obtain ⟨t', ht⟩ := h2 h p hc
    rw [ht] at hs
    injection hs with hs
    exact absurd hs hne

theorem presents_setPin {s : St} {o : Obs} (a : Kry.Agree s o) {h i : Nat} {old new : Bytes}
    (hm : AMap.get s.smap h = some i) :
    presents o (.sess h (.setPin old new)) = some (i, (vlog s i).getD .user, old) := by
  obtain ⟨t, ht⟩ : ∃ t, o.slotsOf h = i :: t := by
    rcases slotsOf_eq a hm with e | e
    · exact ⟨[], e⟩
    · exact e
  unfold presents
  simp only [ht, a.who i]

theorem slotsOf_cons {s : St} {o : Obs} (a : Kry.Agree s o) {h i : Nat} (hm : AMap.get s.smap h = some i) :
    ∃ t, o.slotsOf h = i :: t := by
  rcases slotsOf_eq a hm with e | e
  · exact ⟨[], e⟩
  · exact e

theorem login_change {s : St} {o : Obs} {j ut : Nat} {sl : Slot} {u : User} (hi : Inv s) (a : Kry.Agree s o)
    (hst : o.stale j = false) (hj : AMap.get s.slots j = some sl) (hl : sl.token.logged = none)
    (hu : Token.userOf ut = some u) (hro : ¬ (ut = CKU_SO ∧ sl.hasRo = true)) :
    (Slot.changeLoop (Token.userOf ut) sl.sessions).1 = none := by
  rw [hu]
  refine changeLoop_none fun p hp => ?_
  obtain ⟨k, y⟩ := p
  have hy : AMap.get sl.sessions k = some y := AMap.get_of_mem (hi.slot j sl hj).nd hp
  have hk : AMap.get s.smap k = some j := (hi.link k j).2 ⟨sl, y, hj, hy⟩
  obtain ⟨l, hl', e1, e2⟩ := (a.map k j).2 hk
  obtain ⟨st, hs1, hs2⟩ := a.sess l hl'
  rw [e1, e2, vsess_at hj, hy] at hs1
  injection hs1 with hs1
  injection hs1 with _ hs1
  have hw : o.who l.slot = none := by rw [e2, a.who, vlog_at hj, hl]
  have := hs2 (by rw [e2]; exact hst)
  rw [← hs1] at this
  unfold told at this
  rw [hw] at this
  simp only [reduceCtorEq, false_and, if_false] at this
  show y.state = _ ∨ y.state = _ ∧ _
  cases hb : isRw l.flags with
  | true => rw [hb] at this; exact .inl this
  | false =>
    rw [hb] at this
    refine .inr ⟨this, ?_⟩
    cases u with
    | user => rfl
    | so =>
      exfalso
      apply hro
      refine ⟨?_, ?_⟩
      · unfold Token.userOf at hu
        split at hu
        · assumption
        · split at hu <;> cases hu
      · unfold Slot.hasRo
        rw [List.any_eq_true]
        refine ⟨(k, y), hp, ?_⟩
        simp only [this]
        rfl

section
variable {e : Env} {o : Obs} {i : Nat} {s : St} {K : Bytes} {v : Nat} {π : Pins}

theorem stepOut_login {h ut : Nat} {pin : Bytes} (hi : Inv s) (a : Kry.Agree s o) (hv : SlotV C s i K v π) :
    StepOut C e o i s (.login h ut pin) (fnLogin C e s h ut pin) K v π := by
  have bad : ∀ r : Rv, r ≠ .pinIncorrect → r ≠ .pinLocked →
      StepOut C e o i s (.login h ut pin) (.err r, s) K v π := fun r h1 h2 =>
    out_same hv rfl rfl (fun _ => eff_err h1 h2 fun ⟨_, _, h⟩ => by cases h) (fun _ _ h => by cases h)
  unfold fnLogin
  split
  · rename_i r hg
    have := getSession_err hg
    rcases this with rfl | rfl | rfl <;> exact bad _ (by decide) (by decide)
  · rename_i j sl x hg
    obtain ⟨hr, hm, hj, hx⟩ := getSession_ok hg
    have hpr := presents_login a (ut := ut) (pin := pin) hm
    rw [vlog_at hj] at hpr
    by_cases ij : j = i
    · subst ij
      split
      · exact bad _ (by decide) (by decide)
      · rename_i hro
        split
        · exact bad _ (by decide) (by decide)
        · have tv := hv.2 sl hj
          have lo := token_login (e := e.sub 0) (ut := ut) (pin := pin) tv
          have ln := login_none (C := C) (e := e.sub 0) (t := sl.token) (ut := ut) (pin := pin)
          have li := login_sameI (C := C) (e.sub 0) sl.token ut pin
          cases ht : target sl.token.logged ut with
          | none =>
            obtain ⟨r, hr1, hr2, hr3⟩ := ln ht
            have fin : StepOut C e o j s (.login h ut pin) (.err r, s.setSlot j ⟨sl.token, sl.sessions⟩) K v π :=
              out_of hj ((get_setSlot hj).trans (if_pos rfl)) tv id rfl
                (eff_err hr2 hr3 fun ⟨_, _, h⟩ => by cases h) (fun _ _ h => by cases h)
            rw [hr1]
            simp only
            split
            · split
              · exact bad _ (by decide) (by decide)
              · exact fin
            · exact fin
          | some u =>
            rw [ht] at hpr
            simp only [Option.map_some] at hpr
            generalize sl.token.login C (e.sub 0) ut pin = p at lo li ⊢
            obtain ⟨r, t1⟩ := p
            obtain ⟨⟨⟨π', l1, l2, l3⟩, l4⟩, l5⟩ := lo
            have lq : quiet e → (r, π') = authP C π u pin := by
              intro q
              rw [l3 (quiet_sub q 0)]
              unfold loginP
              unfold target at ht
              cases hu : Token.userOf ut with
              | some w =>
                rw [hu] at ht
                simp only at ht ⊢
                split at ht
                · rename_i hl; injection ht with ht; subst ht; simp [hl]
                · cases ht
              | none =>
                rw [hu] at ht
                simp only at ht ⊢
                split at ht
                · rename_i hc; rw [if_pos hc, ht]
                · cases ht
            have lr : r = .ok () → Right C π u pin := by
              intro hr
              obtain ⟨w, hw1, hw2⟩ := l5 hr
              rw [ht] at hw1; injection hw1 with hw1; subst hw1; exact hw2
            have inn : Inited sl.token.store.db → Inited t1.store.db := fun h => h.rest l4
            have lg := token_logout (e := e.sub 1) l1
            have lgI := logout_sameI (e.sub 1) t1
            have fin : ∀ (ss : List (Nat × Session)), StepOut C e o j s (.login h ut pin) (Out.of r, s.setSlot j ⟨t1, ss⟩) K v π :=
              fun ss => out_of hj ((get_setSlot hj).trans (if_pos rfl)) l1 inn li.init
                (.login hpr l2 (fun ho => lr (by cases r with | ok u => rfl | error r => cases ho)) fun q _ => ⟨r, rfl, lq q⟩)
                (fun _ _ h => by cases h)
            have out2 : ∀ (r2 : Rv) (ss : List (Nat × Session)),
                (quiet e → o.stale j = false → r = .error r2) →
                StepOut C e o j s (.login h ut pin) (.err r2, s.setSlot j ⟨(t1.logout (e.sub 1)).2, ss⟩) K v π := by
              intro r2 ss hq
              refine out_of hj ((get_setSlot hj).trans (if_pos rfl)) lg.1 (fun h => (inn h).rest lg.2.1)
                (lgI.init.trans li.init) (.login hpr l2 (fun ho => by cases ho) fun q hst => ⟨.error r2, rfl, ?_⟩)
                (fun _ _ h => by cases h)
              rw [← hq q hst]; exact lq q
            simp only
            split
            · split
              · exact bad _ (by decide) (by decide)
              · cases r with
                | ok _ => exact fin _
                | error r =>
                  simp only
                  split
                  · exact out2 _ _ fun _ _ => rfl
                  · exact fin _
            · rename_i hctx
              cases r with
              | error r => exact fin _
              | ok _ =>
                simp only
                have huo : Token.userOf ut = some u ∧ sl.token.logged = none := by
                  unfold target at ht
                  cases hu : Token.userOf ut with
                  | some w =>
                    rw [hu] at ht
                    simp only at ht
                    split at ht
                    · rename_i hl; exact ⟨ht, hl⟩
                    · cases ht
                  | none =>
                    rw [hu] at ht
                    simp only [if_neg hctx] at ht
                    cases ht
                have chg : o.stale j = false → (Slot.changeLoop (Token.userOf ut) sl.sessions).1 = none :=
                  fun hst => login_change hi a hst hj huo.2 huo.1 hro
                generalize Slot.changeLoop (Token.userOf ut) sl.sessions = z at chg ⊢
                obtain ⟨r2, ss⟩ := z
                cases r2 with
                | none => exact fin ss
                | some r2 => exact out2 _ _ fun _ hst => (by have := chg hst; cases this)
    · have oth : ∀ (out : Out) (sl' : Slot), StepOut C e o i s (.login h ut pin) (out, s.setSlot j sl') K v π := by
        intro out sl'
        refine out_same hv (get_setSlot_ne ij) rfl (fun _ => eff_other (s := s) (j := j) ?_ (fun _ _ h => by cases h) ij) (fun _ _ h => by cases h)
        intro i' u pin' hp
        rw [hpr] at hp
        cases ht : target sl.token.logged ut with
        | none => rw [ht] at hp; cases hp
        | some w => rw [ht] at hp; injection hp with hp; injection hp with hp; exact hp.symm
      repeat' split
      all_goals first
        | exact bad _ (by decide) (by decide)
        | exact oth _ _

/-- Calls that touch no PIN and leave the database part of each token alone. -/
theorem out_rest {c : Call} {x : Out × St} {j : Nat} {slj sl' : Slot} (hv : SlotV C s i K v π)
    (hj : AMap.get s.slots j = some slj) (hx : ∀ k, AMap.get x.2.slots k = if k = j then some sl' else AMap.get s.slots k)
    (hd : x.2.disks = s.disks) (h1 : TVault C slj.token K v π → TVault C sl'.token K v π ∧ (Inited slj.token.store.db → Inited sl'.token.store.db))
    (hii : sl'.token.isInitialized = slj.token.isInitialized)
    (eff : ∀ ini, PinEff C e o i ini π c x.1 π) (hc : ∀ p l, c ≠ .initToken i p l) : StepOut C e o i s c x K v π := by
  by_cases ij : i = j
  · subst ij
    exact out_of hj ((hx i).trans (if_pos rfl)) (h1 (hv.2 slj hj)).1 (h1 (hv.2 slj hj)).2 hii (eff _) hc
  · exact out_same hv ((hx i).trans (if_neg ij)) (by rw [hd]) eff (fun p l h => absurd h (hc p l))

theorem fnInitPin_same (e : Env) (t : Token) (pin : Bytes) : Same t (fnInitPin C e t pin).2 := by
  unfold fnInitPin
  split
  · exact .refl t
  · exact setPin_same ..

theorem get_set {s : St} {j k : Nat} {sl sl' : Slot} (hj : AMap.get s.slots j = some sl) :
    AMap.get (s.setSlot j sl').slots k = if k = j then some sl' else AMap.get s.slots k := by
  rw [get_setSlot hj]
  by_cases e : j = k
  · subst e; rfl
  · rw [if_neg e, if_neg (Ne.symm e)]

theorem stepOut_close {h : Nat} (hv : SlotV C s i K v π) :
    StepOut C e o i s (.closeSession h) (fnClose e s h) K v π := by
  have eff : ∀ out ini, PinEff C e o i ini π (.closeSession h) out π := fun _ _ => eff_still nofun nofun nofun nofun
  unfold fnClose
  split
  · exact out_same hv rfl rfl (eff _) nofun
  · rename_i j slj hg
    obtain ⟨hr, hm, hj⟩ := getSessionSlot_ok hg
    split
    · exact out_same hv rfl rfl (eff _) nofun
    · refine out_rest (sl' := ⟨if AMap.erase slj.sessions h = [] then ((slj.token.dropSessionObjects h).logout e).2
        else slj.token.dropSessionObjects h, AMap.erase slj.sessions h⟩) hv hj (fun k => get_set hj) rfl ?_ ?_ (eff _) nofun
      · intro tv
        simp only
        have a := drop_vault (h := h) tv
        split
        · have b := token_logout (e := e) a.1
          exact ⟨b.1, fun h => (h.rest a.2).rest b.2.1⟩
        · exact ⟨a.1, id⟩
      · simp only
        split
        · exact (logout_sameI _ _).init
        · rfl

theorem stepOut_closeAll {k : Nat} (hv : SlotV C s i K v π) :
    StepOut C e o i s (.closeAll k) (fnCloseAll e s k) K v π := by
  have eff : ∀ out ini, PinEff C e o i ini π (.closeAll k) out π := fun _ _ => eff_still nofun nofun nofun nofun
  unfold fnCloseAll
  split
  · exact out_same hv rfl rfl (eff _) nofun
  · simp only
    split
    · exact out_same hv rfl rfl (eff _) nofun
    · rename_i slj hg
      obtain ⟨hr, hj⟩ := getSlot_ok hg
      have hj : AMap.get s.slots k = some slj := hj
      split
      · exact out_rest (sl' := ⟨slj.token, []⟩) hv hj (fun k => get_set hj) rfl (fun tv => ⟨tv, id⟩) rfl (eff _) nofun
      · refine out_rest (sl' := ⟨(((AMap.keys slj.sessions).foldl Token.dropSessionObjects slj.token).logout e).2, []⟩)
          hv hj (fun k => get_set hj) rfl ?_ ?_ (eff _) nofun
        · intro tv
          have a := dropAll_vault (l := AMap.keys slj.sessions) tv
          have b := token_logout (e := e) a.1
          exact ⟨b.1, fun h => (h.rest a.2).rest b.2.1⟩
        · exact (logout_sameI _ _).init.trans (foldDrop_same _ _).init

theorem stepOut_logout {h : Nat} (hv : SlotV C s i K v π) :
    StepOut C e o i s (.logout h) (fnLogout e s h) K v π := by
  have eff : ∀ out ini, PinEff C e o i ini π (.logout h) out π := fun _ _ => eff_still nofun nofun nofun nofun
  unfold fnLogout
  split
  · exact out_same hv rfl rfl (eff _) nofun
  · rename_i j slj x hg
    obtain ⟨hr, hm, hj, hx⟩ := getSession_ok hg
    split
    · exact out_same hv rfl rfl (eff _) nofun
    · have a : TVault C slj.token K v π → _ := fun tv => token_logout (e := e) tv
      have b := (logout_sameI e slj.token).init
      generalize slj.token.logout e = p at a b ⊢
      obtain ⟨r, t⟩ := p
      cases r with
      | ok _ => exact out_rest hv hj (fun k => get_set hj) rfl (fun tv => ⟨(a tv).1, fun h => h.rest (a tv).2.1⟩) b (eff _) nofun
      | error r => exact out_rest hv hj (fun k => get_set hj) rfl (fun tv => ⟨(a tv).1, fun h => h.rest (a tv).2.1⟩) b (eff _) nofun

theorem stepOut_open {k f : Nat} (hv : SlotV C s i K v π) :
    StepOut C e o i s (.openSession k f) (fnOpen s k f) K v π := by
  have eff : ∀ out ini, PinEff C e o i ini π (.openSession k f) out π := fun _ _ => eff_still nofun nofun nofun nofun
  unfold fnOpen
  split
  · exact out_same hv rfl rfl (eff _) nofun
  · rename_i slj hg
    obtain ⟨hr, hj⟩ := getSlot_ok hg
    repeat' split
    all_goals first
      | exact out_same hv rfl rfl (eff _) nofun
      | exact out_rest hv hj (fun k => get_set hj) rfl (fun tv => ⟨tv, id⟩) rfl (eff _) nofun

theorem stepOut_op (M : Mechs) (O : Oracle) {h : Nat} {c : OCall} (hv : SlotV C s i K v π) :
    StepOut C e o i s (.op h c) (step M C O e s (.op h c)) K v π := by
  have eff : ∀ out ini, PinEff C e o i ini π (.op h c) out π := fun _ _ => eff_still nofun nofun nofun nofun
  simp only [step]
  split
  · exact out_same hv rfl rfl (eff _) nofun
  · rename_i j slj x hg
    obtain ⟨hr, hm, hj, hx⟩ := getSession_ok hg
    have a := op_still (C := C) M e h c x slj.token
    exact out_rest hv hj (fun k => get_set hj) rfl (fun tv => ⟨a.vault tv, a.inited⟩) a.init (eff _) nofun

theorem stepOut_sess (M : Mechs) (O : Oracle) {h : Nat} {c : SCall} (a : Kry.Agree s o) (hv : SlotV C s i K v π) :
    StepOut C e o i s (.sess h c) (step M C O e s (.sess h c)) K v π := by
  have bad : ∀ r : Rv, r ≠ .pinIncorrect → r ≠ .pinLocked →
      StepOut C e o i s (.sess h c) (.err r, s) K v π := fun r h1 h2 =>
    out_same hv rfl rfl (fun _ => eff_err h1 h2 fun ⟨_, _, h⟩ => by cases h) nofun
  simp only [step]
  split
  · rename_i r hg
    rcases getSession_err hg with rfl | rfl | rfl <;> exact bad _ (by decide) (by decide)
  · rename_i j slj x hg
    obtain ⟨hr, hm, hj, hx⟩ := getSession_ok hg
    by_cases ij : j = i
    · subst ij
      have tv := hv.2 slj hj
      by_cases h1 : ∃ p, c = .initPin p
      · obtain ⟨p, rfl⟩ := h1
        simp only [sessStep]
        by_cases hin : slj.token.isInitialized = true
        · simp only [hin, Bool.not_true, Bool.false_eq_true, if_false]
          obtain ⟨t, ht⟩ := slotsOf_cons a hm
          have b := fnInitPin_vault (e := e) (pin := p) tv
          have bi := fnInitPin_same (C := C) e slj.token p
          generalize fnInitPin C e slj.token p = y at b bi ⊢
          obtain ⟨r, t1⟩ := y
          obtain ⟨π', b1, b2, b3, b4, b5⟩ := b
          refine out_of hj ((get_setSlot hj).trans (if_pos rfl)) b1 (fun h => h.rest b2) bi.init
            (.initPin ht (fun hn => b3 fun h => ?_) fun ho => ?_) nofun
          · simp only at h; subst h; exact hn rfl
          · have hr : r = .ok () := out_ok ho
            obtain ⟨w, rest⟩ := b4 hr
            exact ⟨by rw [a.who, vlog_at hj, w], rest⟩
        · simp only [hin, Bool.not_false, if_true]
          exact out_of hj ((get_setSlot hj).trans (if_pos rfl)) tv id rfl
            (eff_err (by decide) (by decide) nofun) nofun
      · by_cases h2 : ∃ p q, c = .setPin p q
        · obtain ⟨old, new, rfl⟩ := h2
          simp only [sessStep]
          have hp := presents_setPin a (old := old) (new := new) hm
          rw [vlog_at hj] at hp
          have b := fnSetPin_vault (e := e) (s := x) (old := old) (new := new) tv
          have bi := fnSetPin_same (C := C) e x slj.token old new
          generalize fnSetPin C e x slj.token old new = y at b bi ⊢
          obtain ⟨r, t1⟩ := y
          obtain ⟨π', b1, b2, b3, b4, b5, b6⟩ := b
          refine out_of hj ((get_setSlot hj).trans (if_pos rfl)) b1 (fun h => h.rest b2) bi.init
            (.setPin hp (fun hn => b3 fun h => ?_) (fun ho => b4 (out_ok ho)) fun q => ?_) nofun
          · simp only at h; subst h; exact hn rfl
          · rcases b5 q with h | ⟨r', h, h'⟩
            · exact .inl ⟨r, rfl, h⟩
            · simp only at h; subst h; exact .inr ⟨r', rfl, h'⟩
        · have st := sess_still (C := C) O e h c x slj.token (fun p hp => h1 ⟨p, hp⟩) (fun p q hp => h2 ⟨p, q, hp⟩)
          refine out_of hj ((get_setSlot hj).trans (if_pos rfl)) (st.vault tv) st.inited st.init
            (eff_still nofun (fun _ p q hp => ?_) (fun _ p hp => ?_) nofun) nofun
          · injection hp with _ hp; exact h2 ⟨p, q, hp⟩
          · injection hp with _ hp; exact h1 ⟨p, hp⟩
    · refine out_same hv (get_setSlot_ne ij) rfl (fun _ => eff_other (s := s) (j := j) ?_ ?_ ij) nofun
      · intro i' u pin' hp
        by_cases h2 : ∃ p q, c = .setPin p q
        · obtain ⟨old, new, rfl⟩ := h2
          rw [presents_setPin a hm] at hp
          injection hp with hp; injection hp with hp; exact hp.symm
        · exfalso
          cases c with
          | setPin p q => exact h2 ⟨p, q, rfl⟩
          | _ => cases hp
      · intro h' p hp
        injection hp with hp _
        subst hp
        exact slotsOf_cons a hm

theorem authP_err {r : Rv} {π π' : Pins} {u : User} {pin : Bytes} (h : (.error r, π') = authP C π u pin) :
    r = .pinLocked ∨ r = .pinIncorrect ∨ r = .userPinNotInitialized := by
  unfold authP at h
  split at h
  · injection h with h; injection h with h; exact .inr (.inr h)
  · split at h
    · injection h with h; injection h with h; exact .inl h
    · split at h
      · injection h with h; cases h
      · injection h with h; injection h with h
        subst h
        split
        · exact .inl rfl
        · exact .inr (.inl rfl)

theorem stepOut_initToken {k : Nat} {pin : Bytes} {l : Option Bytes} (hp : plain e) (hv : SlotV C s i K v π) :
    StepOut C e o i s (.initToken k pin l) (fnInitToken C e s k pin l) K v π := by
  have bad : ∀ r : Rv, r ≠ .pinIncorrect → r ≠ .pinLocked → r ≠ .generalError →
      StepOut C e o i s (.initToken k pin l) (.err r, s) K v π := fun r h1 h2 h3 =>
    out_same hv rfl rfl (fun _ => eff_err h1 h2 fun _ => h3) nofun
  unfold fnInitToken
  split
  · rename_i r hg
    unfold St.getSlot at hg
    repeat' split at hg
    · injection hg with hg; subst hg; exact bad _ (by decide) (by decide) (by decide)
    · cases hg
    · injection hg with hg; subst hg; exact bad _ (by decide) (by decide) (by decide)
  · rename_i slj hg
    obtain ⟨hr, hj⟩ := getSlot_ok hg
    split
    · exact bad _ (by decide) (by decide) (by decide)
    · extract_lets lab
      clear_value lab
      by_cases ij : k = i
      · subst ij
        have tv := hv.2 slj hj
        have b := token_initToken (e := e) (pin := pin) (label := lab) tv hp
        generalize slj.token.initToken C e pin lab = p at b ⊢
        obtain ⟨r, t⟩ := p
        cases b with
        | refused r _ π' hi h hs hq rest hl hi' =>
          have go : ∀ out : Out, out ≠ .ok → (quiet e → out = .err (if r = .pinLocked ∨ r = .pinIncorrect then r else .generalError)) →
              StepOut C e o k s (.initToken k pin l) (out, s.setSlot k ⟨t, slj.sessions⟩) K v π := by
            intro out ho hout
            refine ⟨K, v, π', true, slotV_some ((get_setSlot hj).trans (if_pos rfl)) h, fun _ => rfl,
              .initToken (.refused rfl ho hs fun q => ⟨r, hq q, hout q⟩), fun hk => .inl (knownAt_some ((get_setSlot hj).trans (if_pos rfl)) ?_ hi'),
              fun _ _ _ h => absurd h ho, fun h => absurd rfl (h pin l)⟩
            have := hk.1
            rw [dbAt_some hj] at this
            exact this.rest rest
          simp only
          split
          · rename_i hh; cases hh
          · rename_i hh; injection hh with hh; subst hh; exact go _ nofun fun _ => rfl
          · rename_i hh; injection hh with hh; subst hh; exact go _ nofun fun _ => rfl
          · rename_i hh; injection hh with hh; subst hh
            exact go _ nofun fun q => absurd (authP_err (hq q)) (by decide)
          · rename_i hh; injection hh with hh; subst hh
            exact go _ nofun fun q => absurd (authP_err (hq q)) (by decide)
          · rename_i hh; injection hh with hh; subst hh
            refine go _ nofun fun q => ?_
            rw [if_neg]
            rintro (rfl | rfl) <;> simp_all
        | kept r _ π' hr h hs rest hpr hq hl =>
          have := hpr hp
          have : ∀ x : St, (match (.error r : Res Unit) with
            | .ok () => (Out.ok, x)
            | .error .pinLocked => (.err .pinLocked, x)
            | .error .pinIncorrect => (.err .pinIncorrect, x)
            | .error .pinInvalid => (.err .pinInvalid, x)
            | .error .pinExpired => (.err .pinExpired, x)
            | .error _ => (.err .generalError, x)) = (.err .generalError, x) := by
            intro x
            unfold refusedPin at this
            split <;> simp_all
          refine Eq.mpr (congrArg (fun y => StepOut C e o k s _ y K v π) (this _)) ?_
          exact ⟨K, v, π', slj.token.isInitialized, slotV_some ((get_setSlot hj).trans (if_pos rfl)) h, fun hk => hk.2 slj hj,
            .initToken (.kept hr hs), fun _ => .inr ⟨pin, l, rfl, rfl⟩, nofun, fun h => absurd rfl (h pin l)⟩
        | wiped r _ K' v' π' hr h hπ ho hpr hl =>
          have := hpr hp
          have : ∀ x : St, (match (.error r : Res Unit) with
            | .ok () => (Out.ok, x)
            | .error .pinLocked => (.err .pinLocked, x)
            | .error .pinIncorrect => (.err .pinIncorrect, x)
            | .error .pinInvalid => (.err .pinInvalid, x)
            | .error .pinExpired => (.err .pinExpired, x)
            | .error _ => (.err .generalError, x)) = (.err .generalError, x) := by
            intro x
            unfold refusedPin at this
            split <;> simp_all
          refine Eq.mpr (congrArg (fun y => StepOut C e o k s _ y K v π) (this _)) ?_
          exact ⟨K', v', π', slj.token.isInitialized, slotV_some ((get_setSlot hj).trans (if_pos rfl)) h, fun hk => hk.2 slj hj,
            .initToken (.wiped hr hπ), fun _ => .inr ⟨pin, l, rfl, rfl⟩, nofun, fun h => absurd rfl (h pin l)⟩
        | done _ K' v' hr h ho hi hf hl hK =>
          exact ⟨K', v', _, slj.token.isInitialized, slotV_some ((get_setSlot hj).trans (if_pos rfl)) h, fun hk => hk.2 slj hj,
            .initToken (.done hr), fun _ => .inl (knownAt_some ((get_setSlot hj).trans (if_pos rfl)) hi hf),
            fun _ _ _ _ => knownAt_some ((get_setSlot hj).trans (if_pos rfl)) hi hf, fun h => absurd rfl (h pin l)⟩
      · generalize slj.token.initToken C e pin lab = p
        obtain ⟨r, t⟩ := p
        have oth : ∀ (out : Out) (sl' : Slot), StepOut C e o i s (.initToken k pin l) (out, s.setSlot k sl') K v π := by
          intro out sl'
          refine out_same hv (get_setSlot_ne ij) rfl (fun _ => eff_other (s := s) (j := k) ?_ nofun ij) ?_
          · intro i' u pin' hp; injection hp with hp; injection hp with hp; exact hp.symm
          · intro p l' hc; injection hc with hc; exact absurd hc ij
        simp only
        repeat' split
        all_goals exact oth _ _

theorem initSlots_sub {conf : List (Nat × TokCfg)} {b : Bool} {m : Nat} {sl : Slot}
    (hn : AMap.get s.slots i = none) (hs : AMap.get (initSlots C e s b conf m).2.slots i = some sl) :
    ∃ k cfg, Token.new C (e.sub k) (match AMap.get s.disks i with
      | some d => d
      | none => Db.empty) cfg = .ok sl.token := by
  induction conf generalizing s b m with
  | nil => rw [show AMap.get (initSlots C e s b [] m).2.slots i = AMap.get s.slots i from rfl, hn] at hs; cases hs
  | cons p conf ih =>
    obtain ⟨j, cfg⟩ := p
    unfold initSlots at hs
    simp only at hs
    split at hs
    · rw [hn] at hs; cases hs
    · rename_i t ht
      split at hs
      · exact ih hn hs
      · rename_i hj
        by_cases ij : j = i
        · subst ij
          rw [hj] at ht
          have g : AMap.get (s.slots ++ [(j, (⟨t, []⟩ : Slot))]) j = some ⟨t, []⟩ := by
            rw [AMap.get_append, hn]; simp [AMap.get_cons]
          rw [initSlots_keep (sl := ⟨t, []⟩) g] at hs
          injection hs with hs; subst hs
          exact ⟨_, cfg, ht⟩
        · have g : AMap.get (s.slots ++ [(j, (⟨t, []⟩ : Slot))]) i = none := by
            rw [AMap.get_append, hn]; simp [AMap.get_cons, ij]
          exact ih (s := { s with slots := s.slots ++ [(j, ⟨t, []⟩)] }) g hs

/-- A slot that is set up, or not. -/
theorem out_new {c : Call} {x : Out × St} (hp : plain e) (hv : SlotV C s i K v π) (hn : AMap.get s.slots i = none)
    (hd : AMap.get x.2.disks i = AMap.get s.disks i)
    (hx : ∀ sl, AMap.get x.2.slots i = some sl → ∃ k cfg, Token.new C (e.sub k) (match AMap.get s.disks i with
      | some d => d
      | none => Db.empty) cfg = .ok sl.token)
    (eff : ∀ ini, PinEff C e o i ini π c x.1 π) (hc : ∀ p l, c ≠ .initToken i p l) : StepOut C e o i s c x K v π := by
  cases hs : AMap.get x.2.slots i with
  | none => exact out_same hv (hs.trans hn.symm) hd eff (fun p l h => absurd h (hc p l))
  | some sl =>
    obtain ⟨k, cfg, hk⟩ := hx sl hs
    have h0 := hv.1
    have hdb : dbAt s i = (match AMap.get s.disks i with
      | some d => d
      | none => Db.empty) := by unfold dbAt; rw [hn]
    rw [hdb] at h0
    obtain ⟨h1, h2, h3, h4, h5⟩ := new_vault h0 (plain_sub hp k) hk
    refine ⟨K, v, π, true, slotV_some hs h1, fun _ => rfl, eff _, fun kn => .inl ?_, fun p l h => absurd h (hc p l), fun _ => ⟨rfl, rfl⟩⟩
    have := kn.1
    rw [hdb] at this
    exact knownAt_some hs (h3 ▸ this) (h5 this)

theorem stepOut_initialize {conf : List (Nat × TokCfg)} (M : Mechs) (O : Oracle) (hi : Inv s) (hp : plain e) (hv : SlotV C s i K v π) :
    StepOut C e o i s (.initialize conf) (step M C O e s (.initialize conf)) K v π := by
  have eff : ∀ out ini, PinEff C e o i ini π (.initialize conf) out π := fun _ _ => eff_still nofun nofun nofun nofun
  have hd := step_disks (M := M) (C := C) (O := O) (e := e) (s := s) (c := .initialize conf) nofun nofun
  cases hs : AMap.get s.slots i with
  | some sl =>
    refine out_same hv ?_ (by rw [hd]) (eff _) nofun
    show AMap.get (fnInitialize C e s conf).2.slots i = _
    unfold fnInitialize
    by_cases h : s.ready = true
    · rw [if_pos h, hs]; exact initSlots_keep hs
    · have := (hi.off (by simpa [St.ready] using h)).1
      rw [this] at hs; cases hs
  | none =>
    refine out_new hp hv hs (by rw [hd]) (fun sl h => ?_) (eff _) nofun
    have h : AMap.get (fnInitialize C e s conf).2.slots i = some sl := h
    unfold fnInitialize at h
    by_cases hr : s.ready = true
    · rw [if_pos hr] at h
      exact initSlots_sub hs h
    · rw [if_neg hr] at h
      exact initSlots_sub (s := { s with slots := [], smap := [], next := 1 }) rfl h

theorem stepOut_end {c : Call} {out : Out} (hi : Inv s) (hv : SlotV C s i K v π) (eff : ∀ ini, PinEff C e o i ini π c out π)
    (hc : ∀ p l, c ≠ .initToken i p l) : StepOut C e o i s c (out, ⟨[], [], 0, s.files⟩) K v π := by
  have hd : dbAt ⟨[], [], 0, s.files⟩ i = dbAt s i := by
    unfold dbAt
    simp only [get_files s i hi.slotsND]
    cases AMap.get s.slots i <;> rfl
  exact ⟨K, v, π, true, ⟨hd ▸ hv.1, nofun⟩, fun _ => rfl, eff _, fun h => .inl ⟨hd ▸ h.1, nofun⟩,
    fun p l h => absurd h (hc p l), fun _ => ⟨rfl, rfl⟩⟩

/-- One call, seen from the PIN records of a slot. -/
theorem step_pins (M : Mechs) (O : Oracle) (c : Call) (hi : Inv s) (a : Kry.Agree s o) (hp : plain e) (hv : SlotV C s i K v π) :
    StepOut C e o i s c (step M C O e s c) K v π := by
  cases c with
  | «initialize» conf => exact stepOut_initialize M O hi hp hv
  | finalize =>
    simp only [step, fnFinalize]
    split
    · exact out_same hv rfl rfl (fun _ => eff_still nofun nofun nofun nofun) nofun
    · exact stepOut_end hi hv (fun _ => eff_still nofun nofun nofun nofun) nofun
  | openSession j f => exact stepOut_open hv
  | closeSession h => exact stepOut_close hv
  | closeAll j => exact stepOut_closeAll hv
  | login h ut pin => exact stepOut_login hi a hv
  | logout h => exact stepOut_logout hv
  | initToken j pin l => exact stepOut_initToken hp hv
  | getTokenInfo j =>
    simp only [step]
    split <;> exact out_same hv rfl rfl (fun _ => eff_still nofun nofun nofun nofun) nofun
  | sess h c => exact stepOut_sess M O a hv
  | op h c => exact stepOut_op M O hv
  | crash => exact stepOut_end hi hv (fun _ => eff_still nofun nofun nofun nofun) nofun

end

end Kry
