import Verif.Proofs.PinBook

/-! # The answer to C_Login and the PIN-status flags -/

namespace Kry
open Spec

variable {C : Crypto}

/-- The flags that go with a user record. -/
def flagsFor (u : User) : Option (Bytes × Nat) → Nat
  | none => 0
  | some (_, n) => if n = 0 then 0 else userFlags u ⟨false, none, 10, n⟩ 0

theorem userFlags_data (u : User) (d : Option Bytes) (n : Nat) :
    userFlags u ⟨false, d, 10, n⟩ 0 = userFlags u ⟨false, none, 10, n⟩ 0 := rfl

theorem store_flags {e : Env} {s : Store} {K : Bytes} {v : Nat} {π : Pins} {u : User} {pin : Bytes} {co : Bool}
    (q : quiet e) (hd : DbVault C s.db K v π) (ha : AciOk s.aci K v) :
    (s.authUser C e u pin co).2.1 = flagsFor u ((authP C π u pin).2 u) := by
  unfold Store.authUser
  have q0 := quiet_fails (quiet_sub q 0)
  have q1 := quiet_fails (quiet_sub q 1)
  rcases hd.fetch (e.sub 0) u with ⟨r, hf, hx⟩ | ⟨hf, hp, hx⟩ | ⟨p, n, b, hf, hp, hn, hw, hx⟩
  · rw [q0] at hf; cases hf
  · rw [hx]; unfold authP; rw [hp]; simp only [hp, flagsFor]
  · rw [hx]
    simp only [Aci.authenticate, AuthInfo.locked]
    unfold authP
    rw [hp]
    simp only
    by_cases hl : 10 ≤ n
    · have h0 : n ≠ 0 := by omega
      simp only [hl, decide_true, if_true, Bool.false_eq_true, if_false, h0, hp, flagsFor]
      rfl
    · simp only [hl, decide_false, Bool.false_eq_true, if_false]
      rw [decryptKey_wrapped hw q1]
      by_cases hk : C.pinKey pin = C.pinKey p
      · simp only [if_pos hk, ha.enc, if_true, hd.len, setU, flagsFor]
        cases co <;> rfl
      · simp only [if_neg hk, if_true, Nat.add_eq_zero_iff, Nat.one_ne_zero, and_false, if_false, setU, flagsFor]
        by_cases h10 : 10 ≤ n + 1
        · simp only [h10, decide_true, if_true]; rfl
        · simp only [h10, decide_false, Bool.false_eq_true, if_false]; rfl

/-- The three bits of a user. -/
def lockedBit : User → Nat | .so => 22 | .user => 18
def finalBit : User → Nat | .so => 21 | .user => 17
def lowBit : User → Nat | .so => 20 | .user => 16

/-- The PIN-status bits of user `u` in `f` tell of `n` failures. -/
structure Tells (u : User) (f n : Nat) : Prop where
  locked : f.testBit (lockedBit u) = decide (n = 10)
  final : f.testBit (finalBit u) = decide (n = 9)
  low : f.testBit (lowBit u) = decide (n = 7 ∨ n = 8)

/-- Failed attempts in a record. -/
def failsOf : Option (Bytes × Nat) → Nat
  | none => 0
  | some (_, n) => n

theorem clearFlags_out (f m i : Nat) (h : m.testBit i = true) : (clearFlags f m).testBit i = false := by
  unfold clearFlags
  simp [Nat.testBit_xor, Nat.testBit_and, h]

theorem tells_flags {t : Token} {u : User} {x : Option (Bytes × Nat)} (h : failsOf x ≤ 10) :
    Tells u (t.updateAuthFlags u (flagsFor u x)).info.flags (failsOf x) := by
  have e : ∀ k, (Token.pinFlags u).testBit k = true →
      (t.updateAuthFlags u (flagsFor u x)).info.flags.testBit k = (flagsFor u x).testBit k := by
    intro k hk
    show (clearFlags t.info.flags (Token.pinFlags u) ||| flagsFor u x).testBit k = _
    rw [Nat.testBit_or, clearFlags_out _ _ _ hk, Bool.false_or]
  have go : ∀ n, n ≤ 10 → ∀ u, (if n = 0 then 0 else userFlags u ⟨false, none, 10, n⟩ 0).testBit (lockedBit u) = decide (n = 10) ∧
      (if n = 0 then 0 else userFlags u ⟨false, none, 10, n⟩ 0).testBit (finalBit u) = decide (n = 9) ∧
      (if n = 0 then 0 else userFlags u ⟨false, none, 10, n⟩ 0).testBit (lowBit u) = decide (n = 7 ∨ n = 8) := by
    intro n hn u
    have : ∀ n, n < 11 → (if n = 0 then 0 else userFlags u ⟨false, none, 10, n⟩ 0).testBit (lockedBit u) = decide (n = 10) ∧
      (if n = 0 then 0 else userFlags u ⟨false, none, 10, n⟩ 0).testBit (finalBit u) = decide (n = 9) ∧
      (if n = 0 then 0 else userFlags u ⟨false, none, 10, n⟩ 0).testBit (lowBit u) = decide (n = 7 ∨ n = 8) := by
      cases u <;> decide
    exact this n (by omega)
  have gx : ∀ u, (flagsFor u x).testBit (lockedBit u) = decide (failsOf x = 10) ∧
      (flagsFor u x).testBit (finalBit u) = decide (failsOf x = 9) ∧
      (flagsFor u x).testBit (lowBit u) = decide (failsOf x = 7 ∨ failsOf x = 8) := by
    intro u
    cases x with
    | none => cases u <;> decide
    | some y => exact go y.2 h u
  obtain ⟨g1, g2, g3⟩ := gx u
  refine ⟨?_, ?_, ?_⟩
  · rw [e _ (by cases u <;> decide), g1]
  · rw [e _ (by cases u <;> decide), g2]
  · rw [e _ (by cases u <;> decide), g3]

theorem authP_le {π : Pins} {u : User} {pin : Bytes} (h : ∀ p n, π u = some (p, n) → n ≤ 10) :
    failsOf ((authP C π u pin).2 u) ≤ 10 := by
  unfold authP
  cases hp : π u with
  | none => simp [hp, failsOf]
  | some x =>
    obtain ⟨p, n⟩ := x
    have := h p n hp
    simp only
    split
    · simp only [hp, failsOf]; omega
    · split
      · simp [setU, failsOf]
      · simp only [setU, if_true, failsOf]; omega

theorem auth_tells {e : Env} {t : Token} {K : Bytes} {v : Nat} {π : Pins} {u : User} {pin : Bytes} {co : Bool}
    (q : quiet e) (h : TVault C t K v π) :
    Tells u (t.authUser C e u pin co).2.info.flags (failsOf ((authP C π u pin).2 u)) := by
  have a := store_flags (u := u) (pin := pin) (co := co) q h.db h.aci
  have hle : failsOf ((authP C π u pin).2 u) ≤ 10 := authP_le fun p n hp => (h.db.present u p n hp).1
  unfold Token.authUser
  generalize t.store.authUser C e u pin co = p at a ⊢
  obtain ⟨r, f, st⟩ := p
  simp only at a ⊢
  rw [a]
  have : Tells u (Token.updateAuthFlags { t with store := st } u (flagsFor u ((authP C π u pin).2 u))).info.flags _ := tells_flags hle
  cases r with
  | error r => exact this
  | ok _ => cases co <;> exact this

theorem logout_flags (e : Env) (t : Token) : (t.logout e).2.info = t.info := by
  unfold Token.logout
  split
  · rfl
  · simp only
    repeat' split
    all_goals rfl

/-- C_Login when it gets as far as looking at the PIN. -/
theorem login_exact {e : Env} {o : Obs} {i : Nat} {s : St} {K : Bytes} {v : Nat} {π : Pins} {h ut : Nat} {u : User} {pin : Bytes}
    (hi : Inv s) (a : Kry.Agree s o) (hv : SlotV C s i K v π) (q : quiet e) (hst : o.stale i = false)
    (hp : presents o (.login h ut pin) = some (i, u, pin)) :
    ((∃ sl x, AMap.get s.slots i = some sl ∧ AMap.get sl.sessions h = some x ∧
        ((ut = CKU_SO ∧ sl.hasRo = true ∧ (fnLogin C e s h ut pin).1 = .err .sessionReadOnlyExists) ∨
         (sl.token.isInitialized = false ∧ (fnLogin C e s h ut pin).1 = .err .tokenNotInitialized) ∨
         (ut = CKU_CONTEXT_SPECIFIC ∧ x.login ≠ .required ∧ (fnLogin C e s h ut pin).1 = .err .operationNotInitialized))) ∨
      ((fnLogin C e s h ut pin).1 = Out.of (authP C π u pin).1 ∧
        ∃ sl', AMap.get (fnLogin C e s h ut pin).2.slots i = some sl' ∧
          Tells u sl'.token.info.flags (failsOf ((authP C π u pin).2 u)))) := by
  obtain ⟨hm, htg⟩ : AMap.get s.smap h = some i ∧ target (vlog s i) ut = some u := by
    cases hm : AMap.get s.smap h with
    | none =>
      have : o.slotsOf h = [] := by
        unfold Obs.slotsOf
        rw [List.map_eq_nil_iff, List.filter_eq_nil_iff]
        intro l hl hlh
        have := (a.map h l.slot).1 ⟨l, hl, by simpa using hlh, rfl⟩
        rw [hm] at this; cases this
      simp only [presents, this] at hp
      cases hp
    | some j =>
      rw [presents_login a hm] at hp
      cases ht : target (vlog s j) ut with
      | none => rw [ht] at hp; cases hp
      | some w =>
        rw [ht] at hp
        injection hp with hp; injection hp with h1 h2; injection h2 with h2
        subst h1; subst h2
        exact ⟨rfl, ht⟩
  obtain ⟨sl, x, hg, hj, hx⟩ := getSession_live hi hm
  rw [vlog_at hj] at htg
  have tv := hv.2 sl hj
  unfold fnLogin
  rw [hg]
  simp only
  by_cases hro : ut = CKU_SO ∧ sl.hasRo = true
  · rw [if_pos hro]
    exact .inl ⟨sl, x, hj, hx, .inl ⟨hro.1, hro.2, rfl⟩⟩
  · rw [if_neg hro]
    by_cases hin : sl.token.isInitialized = true
    · simp only [hin, Bool.not_true, Bool.false_eq_true, if_false]
      have q0 := quiet_sub q 0
      have at' : ∀ co, (sl.token.authUser C (e.sub 0) u pin co).1 = (authP C π u pin).1 := by
        intro co
        obtain ⟨⟨⟨π', _, _, h3⟩, _⟩, _⟩ := token_authUser (e := e.sub 0) (u := u) (pin := pin) (co := co) tv
        have := h3 q0
        rw [← this]
      by_cases hc : ut = CKU_CONTEXT_SPECIFIC
      · rw [if_pos hc]
        by_cases hl : x.login ≠ .required
        · rw [if_pos hl]
          exact .inl ⟨sl, x, hj, hx, .inr (.inr ⟨hc, hl, rfl⟩)⟩
        · rw [if_neg hl]
          right
          have hu : Token.userOf ut = none := by rw [hc]; rfl
          have hlog : sl.token.logged = some u := by
            unfold target at htg
            rw [hu] at htg
            simp only [if_pos hc] at htg
            exact htg
          have el : sl.token.login C (e.sub 0) ut pin = sl.token.authUser C (e.sub 0) u pin true := by
            unfold Token.login
            rw [hu]
            simp only [if_pos hc, hlog]
          rw [el]
          have b := at' true
          have c := auth_tells (u := u) (pin := pin) (co := true) q0 tv
          generalize sl.token.authUser C (e.sub 0) u pin true = y at b c ⊢
          obtain ⟨r, t⟩ := y
          simp only at b c ⊢
          rw [← b]
          cases r with
          | ok _ => exact ⟨rfl, _, (get_setSlot hj).trans (if_pos rfl), c⟩
          | error r =>
            simp only
            split
            · refine ⟨rfl, _, (get_setSlot hj).trans (if_pos rfl), ?_⟩
              simp only [logout_flags]
              exact c
            · exact ⟨rfl, _, (get_setSlot hj).trans (if_pos rfl), c⟩
      · rw [if_neg hc]
        right
        obtain ⟨hu, hlog⟩ : Token.userOf ut = some u ∧ sl.token.logged = none := by
          unfold target at htg
          cases hu : Token.userOf ut with
          | some w =>
            rw [hu] at htg
            simp only at htg
            split at htg
            · rename_i hl; exact ⟨htg, hl⟩
            · cases htg
          | none =>
            rw [hu] at htg
            simp only [if_neg hc] at htg
            cases htg
        have el : sl.token.login C (e.sub 0) ut pin = sl.token.authUser C (e.sub 0) u pin false := by
          unfold Token.login
          rw [hu]
          simp [hlog]
        rw [el]
        have b := at' false
        have c := auth_tells (u := u) (pin := pin) (co := false) q0 tv
        have chg : (Slot.changeLoop (Token.userOf ut) sl.sessions).1 = none := login_change hi a hst hj hlog hu hro
        generalize sl.token.authUser C (e.sub 0) u pin false = y at b c ⊢
        obtain ⟨r, t⟩ := y
        simp only at b c ⊢
        rw [← b]
        cases r with
        | error r => exact ⟨rfl, _, (get_setSlot hj).trans (if_pos rfl), c⟩
        | ok _ =>
          simp only
          generalize Slot.changeLoop (Token.userOf ut) sl.sessions = z at chg ⊢
          obtain ⟨r2, ss⟩ := z
          simp only at chg
          subst chg
          exact ⟨rfl, _, (get_setSlot hj).trans (if_pos rfl), c⟩
    · have hin : sl.token.isInitialized = false := by simpa using hin
      simp only [hin, Bool.not_false, if_true]
      exact .inl ⟨sl, x, hj, hx, .inr (.inl ⟨hin, trivial⟩)⟩

/-- The verdict of the notebook is what the database says. -/
theorem verdict_authP {π : Pins} {n : PinNote} {u : User} {pin : Bytes} (h : π u = PinNote.entry n) :
    Out.of (authP C π u pin).1 = verdict C n pin := by
  unfold authP verdict
  rw [h]
  unfold PinNote.entry
  cases n.pins with
  | nil => rfl
  | cons p ps =>
    simp only
    by_cases h1 : 10 ≤ n.fails
    · simp only [if_pos h1]; rfl
    · simp only [if_neg h1]
      by_cases h2 : C.pinKey pin = C.pinKey p
      · simp only [if_pos h2]; rfl
      · simp only [if_neg h2]
        by_cases h3 : n.fails = 9
        · simp [h3, Out.of]
        · have : ¬ 10 ≤ n.fails + 1 := by omega
          simp [h3, this, Out.of]

/-! ## Runs -/

theorem readPins_fst (l : List Event) : (readPins l).1 = observe l := by
  have : ∀ (x : Obs × PinBook), (l.foldl (fun x ev => (x.1.see ev, x.2.see x.1 ev)) x).1 = l.foldl Obs.see x.1 := by
    induction l with
    | nil => intro x; rfl
    | cons ev l ih => intro x; rw [List.foldl_cons, List.foldl_cons, ih]
  exact this _

theorem slotV_empty {K : Bytes} (h : K.length = 32) (i : Nat) : SlotV C (St.init []) i K 0 noPins :=
  ⟨⟨h, List.nodup_nil, fun _ => rfl, fun _ _ => ⟨rfl, rfl⟩, fun _ _ _ h => by cases h⟩, nofun⟩

/-- The notebooks of a run that began with no token at all. -/
def pinNotes (M : Mechs) (C : Crypto) (O : Oracle) (tr : Trace) : Obs × PinBook := readPins (hist M C O (St.init []) tr)

theorem pinInv_run (M : Mechs) (O : Oracle) (tr : Trace) {s : St} {x : Obs × PinBook} {i : Nat} (hi : Inv s)
    (a : Kry.Agree s x.1) (hp : ∀ p ∈ tr, plain p.1) (h : PinInv C s x.2 i) :
    PinInv C (run M C O s tr) ((hist M C O s tr).foldl (fun x ev => (x.1.see ev, x.2.see x.1 ev)) x).2 i := by
  induction tr generalizing s x with
  | nil => exact h
  | cons p tr ih =>
    obtain ⟨e, c⟩ := p
    have he := hp _ List.mem_cons_self
    exact ih (inv_step M O e s c hi) (agree_step M O e c hi a) (fun p hp' => hp p (List.mem_cons_of_mem _ hp'))
      (pinInv_step M O hi a he h)

theorem pinInv_reach (M : Mechs) (O : Oracle) (tr : Trace) (i : Nat) (hp : ∀ p ∈ tr, plain p.1) :
    PinInv C (run M C O (St.init []) tr) (pinNotes M C O tr).2 i := by
  refine pinInv_run M O tr (x := (.empty, .empty)) (inv_empty [] 0) (agree_empty []) hp ⟨⟨List.replicate 32 0, 0, noPins,
    slotV_empty (by simp) i, nofun⟩, nofun⟩

theorem pinExact_run (M : Mechs) (O : Oracle) (tr : Trace) {s : St} {x : Obs × PinBook} {i : Nat} (hi : Inv s)
    (a : Kry.Agree s x.1) (hp : ∀ p ∈ tr, plain p.1 ∧ (pinCall p.2 = true → quiet p.1))
    (hs : ∀ ev ∈ hist M C O s tr, smooth ev) (h : PinExact C s x.1 x.2 i) :
    let y := (hist M C O s tr).foldl (fun x ev => (x.1.see ev, x.2.see x.1 ev)) x
    PinExact C (run M C O s tr) y.1 y.2 i := by
  induction tr generalizing s x with
  | nil => exact h
  | cons p tr ih =>
    obtain ⟨e, c⟩ := p
    have he := hp _ List.mem_cons_self
    exact ih (inv_step M O e s c hi) (agree_step M O e c hi a) (fun p hp' => hp p (List.mem_cons_of_mem _ hp'))
      (fun ev hev => hs ev (List.mem_cons_of_mem _ hev)) (pinExact_step M O hi a he.1 he.2 (hs _ List.mem_cons_self) h)

theorem pinExact_reach (M : Mechs) (O : Oracle) (tr : Trace) (i : Nat)
    (hp : ∀ p ∈ tr, plain p.1 ∧ (pinCall p.2 = true → quiet p.1))
    (hs : ∀ ev ∈ hist M C O (St.init []) tr, smooth ev) :
    PinExact C (run M C O (St.init []) tr) (pinNotes M C O tr).1 (pinNotes M C O tr).2 i := by
  refine pinExact_run M O tr (x := (.empty, .empty)) (inv_empty [] 0) (agree_empty []) hp hs
    ⟨⟨List.replicate 32 0, 0, slotV_empty (by simp) i⟩, nofun, rfl⟩

theorem agree_notes (M : Mechs) (O : Oracle) (tr : Trace) :
    Kry.Agree (run M C O (St.init []) tr) (pinNotes M C O tr).1 := by
  unfold pinNotes
  rw [readPins_fst]
  exact agree_reach M O [] tr

end Kry
