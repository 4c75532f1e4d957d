import Verif.Proofs.Path

/-!
# What a call does to the operations of a session

Every session after a call is a session just opened, a session from before with the same operations, or
the session the call names.
-/

namespace Kry

variable {M : Mechs} {C : Crypto} {O : Oracle}

/-- The operations, the search and the login marker are the same. -/
def SameOps (x y : Session) : Prop := y.ops = x.ops ∧ y.search = x.search ∧ y.login = x.login

theorem SameOps.refl (x : Session) : SameOps x x := ⟨rfl, rfl, rfl⟩

theorem changeState_ops (x : Session) (u : Option User) : SameOps x (x.changeState u).2 := by
  obtain ⟨sl, st, fl, se, op, lo⟩ := x
  cases st <;> cases u <;> try (rename_i u; cases u)
  all_goals exact ⟨rfl, rfl, rfl⟩

theorem invalidate_ops {l : List (Nat × Session)} {h : Nat} {y : Session}
    (hy : AMap.get (Slot.invalidate l) h = some y) : ∃ x, AMap.get l h = some x ∧ SameOps x y := by
  rw [get_invalidate] at hy
  cases hl : AMap.get l h with
  | none => rw [hl] at hy; cases hy
  | some x =>
    rw [hl] at hy; injection hy with hy; subst hy
    exact ⟨x, rfl, changeState_ops x none⟩

theorem changeLoop_ops {u : Option User} {l l' : List (Nat × Session)} {r : Option Rv}
    (hc : Slot.changeLoop u l = (r, l')) {h : Nat} {y : Session} (hy : AMap.get l' h = some y) :
    ∃ x, AMap.get l h = some x ∧ SameOps x y := by
  rcases get_changeLoop hc h with e | e
  · rw [e] at hy; exact ⟨y, hy, .refl y⟩
  · rw [e] at hy
    cases hl : AMap.get l h with
    | none => rw [hl] at hy; cases hy
    | some x =>
      rw [hl] at hy; injection hy with hy; subst hy
      exact ⟨x, rfl, changeState_ops x u⟩

theorem SameOps.trans {x y z : Session} (a : SameOps x y) (b : SameOps y z) : SameOps x z :=
  ⟨b.1.trans a.1, b.2.1.trans a.2.1, b.2.2.trans a.2.2⟩

/-- Where the session `y` with handle `h` on slot `i` after a call comes from. -/
inductive SessMove (M : Mechs) (C : Crypto) (O : Oracle) (e : Env) (s : St) (h i : Nat) (y : Session) :
    Call → Out → Prop where
  | opened (f : Nat) (hs : AMap.get s.smap h = none) (ho : y.ops = []) (hse : y.search = none)
      (hl : y.login = .notInit) : SessMove M C O e s h i y (.openSession i f) (.handle h)
  | kept (c : Call) (a : Out) (sl : Slot) (x : Session) (hs : AMap.get s.slots i = some sl)
      (hx : AMap.get sl.sessions h = some x) (hk : SameOps x y) (hc : ∀ oc, c ≠ .op h oc)
      (hc2 : ∀ sc, c ≠ .sess h sc) (hc3 : ∀ j f, c = .openSession j f → a ≠ .handle h) : SessMove M C O e s h i y c a
  | loggedIn (pin : Bytes) (sl : Slot) (x : Session) (hs : AMap.get s.slots i = some sl)
      (hx : AMap.get sl.sessions h = some x) (ho : y.ops = x.ops) (hse : y.search = x.search)
      (hr : x.login = .required) (hl : y.login = .loginOk)
      (hok : (sl.token.login C (e.sub 0) CKU_CONTEXT_SPECIFIC pin).1 = .ok ()) :
      SessMove M C O e s h i y (.login h CKU_CONTEXT_SPECIFIC pin) .ok
  | sess (c : SCall) (sl : Slot) (x : Session) (hg : s.getSession h = .ok (i, sl, x))
      (hy : y = (sessStep C O e h c x sl.token).2.1) :
      SessMove M C O e s h i y (.sess h c) (sessStep C O e h c x sl.token).1
  | op (c : OCall) (sl : Slot) (x : Session) (hg : s.getSession h = .ok (i, sl, x))
      (hy : y = (opStep M C e h c x sl.token).2.1) :
      SessMove M C O e s h i y (.op h c) (opStep M C e h c x sl.token).1

theorem step_sess {e : Env} {s : St} {c : Call} (hi : Inv s) {i h : Nat} {sl' : Slot} {y : Session}
    (hs : AMap.get (step M C O e s c).2.slots i = some sl') (hy : AMap.get sl'.sessions h = some y) :
    SessMove M C O e s h i y c (step M C O e s c).1 := by
  have same : ∀ (c : Call) (a : Out), AMap.get s.slots i = some sl' → (∀ oc, c ≠ .op h oc) →
      (∀ sc, c ≠ .sess h sc) → (∀ j f, c = .openSession j f → a ≠ .handle h) → SessMove M C O e s h i y c a :=
    fun c a g h1 h2 h3 => .kept c a sl' y g hy (.refl y) h1 h2 h3
  cases c with
  | «initialize» conf =>
    cases hn : AMap.get s.slots i with
    | none =>
      obtain ⟨e', cfg, conf', _, _, hse, _⟩ := step_new (M := M) (O := O) hn hs
      rw [hse] at hy; cases hy
    | some sl =>
      refine same _ _ ?_ (fun _ h => nomatch h) (fun _ h => nomatch h) (fun _ _ h => nomatch h)
      have hs' := hs
      unfold step at hs'
      simp only at hs'
      unfold fnInitialize at hs'
      simp only at hs'
      by_cases hr : s.ready = true
      · simp only [if_pos hr] at hs'
        rw [initSlots_keep hn] at hs'
        rw [hn]; exact hs'
      · simp only [if_neg hr] at hs'
        exfalso
        have hk : ∀ conf (s : St) b m, (∀ sl, AMap.get s.slots i = some sl → sl.sessions = []) →
            ∀ sl, AMap.get (initSlots C e s b conf m).2.slots i = some sl → sl.sessions = [] := by
          intro conf
          induction conf with
          | nil => intro s b m h0 sl hs; exact h0 sl hs
          | cons p conf ih =>
            intro s b m h0 sl hs
            obtain ⟨j, cfg⟩ := p
            unfold initSlots at hs
            simp only at hs
            repeat' split at hs
            all_goals first
              | exact h0 sl hs
              | exact ih _ _ _ h0 sl hs
              | (refine ih _ _ _ ?_ sl hs
                 intro sl hg
                 simp only [AMap.get_append] at hg
                 cases hh : AMap.get s.slots i with
                 | some z => rw [hh] at hg; injection hg with hg; subst hg; exact h0 _ hh
                 | none =>
                   rw [hh] at hg
                   simp only [AMap.get_cons] at hg
                   split at hg
                   · injection hg with hg; subst hg; rfl
                   · cases hg)
        have := hk conf _ false 0 (by intro sl h; cases h) sl' hs'
        rw [this] at hy; cases hy
  | finalize =>
    unfold step at hs ⊢
    simp only at hs ⊢
    unfold fnFinalize at hs ⊢
    split at hs
    · exact same _ _ hs (fun _ h => nomatch h) (fun _ h => nomatch h) (fun _ _ h => nomatch h)
    · cases hs
  | openSession j f =>
    unfold step at hs ⊢
    simp only at hs ⊢
    unfold fnOpen at hs ⊢
    cases hg : s.getSlot j with
    | error r => rw [hg] at hs; exact same _ _ hs (fun _ h => nomatch h) (fun _ h => nomatch h) (fun _ _ _ h => nomatch h)
    | ok sl =>
      rw [hg] at hs
      simp only at hs ⊢
      by_cases h1 : (!sl.token.isInitialized) = true
      · simp only [if_pos h1] at hs ⊢; exact same _ _ hs (fun _ h => nomatch h) (fun _ h => nomatch h) (fun _ _ _ h => nomatch h)
      simp only [if_neg h1] at hs ⊢
      by_cases h2 : sl.token.logged = some .so ∧ f &&& CKF_RW_SESSION = 0
      · simp only [if_pos h2] at hs ⊢; exact same _ _ hs (fun _ h => nomatch h) (fun _ h => nomatch h) (fun _ _ _ h => nomatch h)
      simp only [if_neg h2] at hs ⊢
      cases hn : Session.new j sl.token.logged f with
      | error r => rw [hn] at hs; exact same _ _ hs (fun _ h => nomatch h) (fun _ h => nomatch h) (fun _ _ _ h => nomatch h)
      | ok x =>
        rw [hn] at hs
        simp only at hs ⊢
        have hsl := (getSlot_ok hg).2
        have hs' : AMap.get (s.setSlot j { sl with sessions := AMap.insert sl.sessions s.next x }).slots i
          = some sl' := hs
        rw [get_setSlot hsl] at hs'
        by_cases e1 : j = i
        · subst e1
          rw [if_pos rfl] at hs'
          injection hs' with hs'; subst hs'
          simp only [AMap.get_insert] at hy
          split at hy
          · rename_i e2
            subst e2
            injection hy with hy; subst hy
            have hx : x.ops = [] ∧ x.search = none ∧ x.login = .notInit := by
              unfold Session.new at hn
              simp only at hn
              repeat' split at hn
              all_goals first | (cases hn; done) | (injection hn with hn; subst hn; exact ⟨rfl, rfl, rfl⟩)
            refine .opened f ?_ hx.1 hx.2.1 hx.2.2
            cases hm : AMap.get s.smap s.next with
            | none => rfl
            | some k => exact absurd (hi.bound _ _ hm).2 (Nat.lt_irrefl _)
          · rename_i e2
            refine .kept _ _ sl y hsl hy (.refl y) (fun _ h => nomatch h) (fun _ h => nomatch h) ?_
            intro _ _ _ he
            injection he with he
            exact e2 he
        · rw [if_neg e1] at hs'
          refine same _ _ hs' (fun _ h => nomatch h) (fun _ h => nomatch h) ?_
          intro _ _ _ he
          injection he with he
          have hm := (hi.link h i).2 ⟨sl', y, hs', hy⟩
          rw [← he] at hm
          exact absurd (hi.bound _ _ hm).2 (Nat.lt_irrefl _)
  | closeSession k =>
    unfold step at hs ⊢
    simp only at hs ⊢
    unfold fnClose at hs ⊢
    cases hg : s.getSessionSlot k with
    | error r => rw [hg] at hs; exact same _ _ hs (fun _ h => nomatch h) (fun _ h => nomatch h) (fun _ _ h => nomatch h)
    | ok p =>
      obtain ⟨j, sl⟩ := p
      rw [hg] at hs
      simp only at hs
      have hsl := (getSessionSlot_ok hg).2.2
      by_cases h1 : (!sl.token.isInitialized) = true
      · simp only [if_pos h1] at hs; exact same _ _ hs (fun _ h => nomatch h) (fun _ h => nomatch h) (fun _ _ h => nomatch h)
      simp only [if_neg h1] at hs
      have hs' := hs
      change AMap.get (s.setSlot j _).slots i = some sl' at hs'
      rw [get_setSlot hsl] at hs'
      by_cases e1 : j = i
      · subst e1
        rw [if_pos rfl] at hs'
        injection hs' with hs'; subst hs'
        simp only [AMap.get_erase] at hy
        split at hy
        · cases hy
        · exact .kept _ _ sl y hsl hy (.refl y) (fun _ h => nomatch h) (fun _ h => nomatch h) (fun _ _ h => nomatch h)
      · rw [if_neg e1] at hs'
        exact same _ _ hs' (fun _ h => nomatch h) (fun _ h => nomatch h) (fun _ _ h => nomatch h)
  | closeAll j =>
    unfold step at hs ⊢
    simp only at hs ⊢
    unfold fnCloseAll at hs ⊢
    by_cases h0 : (!s.ready) = true
    · simp only [if_pos h0] at hs; exact same _ _ hs (fun _ h => nomatch h) (fun _ h => nomatch h) (fun _ _ h => nomatch h)
    simp only [if_neg h0] at hs
    cases hg : ({ s with smap := AMap.retain s.smap fun _ v => v ≠ j } : St).getSlot j with
    | error r => rw [hg] at hs; exact same _ _ hs (fun _ h => nomatch h) (fun _ h => nomatch h) (fun _ _ h => nomatch h)
    | ok sl =>
      rw [hg] at hs
      simp only at hs
      have hsl := (getSlot_ok hg).2
      split at hs
      all_goals
        rw [get_setSlot hsl] at hs
        by_cases e1 : j = i
        · rw [if_pos e1] at hs
          injection hs with hs; subst hs
          cases hy
        · rw [if_neg e1] at hs
          exact same _ _ hs (fun _ h => nomatch h) (fun _ h => nomatch h) (fun _ _ h => nomatch h)
  | login k ut pin =>
    unfold step at hs ⊢
    simp only at hs ⊢
    unfold fnLogin at hs ⊢
    cases hg : s.getSession k with
    | error r => rw [hg] at hs; exact same _ _ hs (fun _ h => nomatch h) (fun _ h => nomatch h) (fun _ _ h => nomatch h)
    | ok p =>
      obtain ⟨j, sl, x⟩ := p
      rw [hg] at hs
      simp only at hs ⊢
      obtain ⟨_, _, hsl, hx⟩ := getSession_ok hg
      -- a slot whose sessions keep their operations
      have put : ∀ (a : Out) (t : Token) (l : List (Nat × Session)),
          (∀ y, AMap.get l h = some y → ∃ x, AMap.get sl.sessions h = some x ∧ SameOps x y) →
          AMap.get (s.setSlot j ⟨t, l⟩).slots i = some sl' →
          SessMove M C O e s h i y (.login k ut pin) a := by
        intro a t l hl hs
        rw [get_setSlot hsl] at hs
        by_cases e1 : j = i
        · subst e1
          rw [if_pos rfl] at hs
          injection hs with hs; subst hs
          obtain ⟨x, h1, h2⟩ := hl y hy
          exact .kept _ _ sl x hsl h1 h2 (fun _ h => nomatch h) (fun _ h => nomatch h) (fun _ _ h => nomatch h)
        · rw [if_neg e1] at hs
          exact same _ _ hs (fun _ h => nomatch h) (fun _ h => nomatch h) (fun _ _ h => nomatch h)
      by_cases h1 : ut = CKU_SO ∧ sl.hasRo = true
      · simp only [if_pos h1] at hs; exact same _ _ hs (fun _ h => nomatch h) (fun _ h => nomatch h) (fun _ _ h => nomatch h)
      simp only [if_neg h1] at hs ⊢
      by_cases h2 : (!sl.token.isInitialized) = true
      · simp only [if_pos h2] at hs; exact same _ _ hs (fun _ h => nomatch h) (fun _ h => nomatch h) (fun _ _ h => nomatch h)
      simp only [if_neg h2] at hs ⊢
      by_cases h3 : ut = CKU_CONTEXT_SPECIFIC
      · simp only [if_pos h3] at hs ⊢
        by_cases h4 : x.login ≠ .required
        · simp only [if_pos h4] at hs; exact same _ _ hs (fun _ h => nomatch h) (fun _ h => nomatch h) (fun _ _ h => nomatch h)
        simp only [if_neg h4] at hs ⊢
        subst h3
        rcases hlog : sl.token.login C (e.sub 0) CKU_CONTEXT_SPECIFIC pin with ⟨r, t⟩
        rw [hlog] at hs
        simp only at hs ⊢
        cases r with
        | ok u =>
          simp only at hs ⊢
          rw [get_setSlot hsl] at hs
          by_cases e1 : j = i
          · subst e1
            rw [if_pos rfl] at hs
            injection hs with hs; subst hs
            simp only [AMap.get_modify] at hy
            by_cases e2 : k = h
            · subst e2
              rw [if_pos rfl, hx] at hy
              injection hy with hy; subst hy
              exact .loggedIn pin sl x hsl hx rfl rfl (Classical.not_not.1 h4) rfl (by rw [hlog])
            · rw [if_neg e2] at hy
              exact .kept _ _ sl y hsl hy (.refl y) (fun _ h => nomatch h) (fun _ h => nomatch h) (fun _ _ h => nomatch h)
          · rw [if_neg e1] at hs
            exact same _ _ hs (fun _ h => nomatch h) (fun _ h => nomatch h) (fun _ _ h => nomatch h)
        | error r =>
          simp only at hs ⊢
          by_cases h5 : r = .pinLocked
          · simp only [if_pos h5] at hs
            exact put _ _ _ (fun y hy => invalidate_ops hy) hs
          · simp only [if_neg h5] at hs
            exact put _ _ _ (fun y hy => ⟨y, hy, .refl y⟩) hs
      · simp only [if_neg h3] at hs ⊢
        rcases hlog : sl.token.login C (e.sub 0) ut pin with ⟨r, t⟩
        rw [hlog] at hs
        simp only at hs ⊢
        cases r with
        | error r =>
          simp only at hs ⊢
          exact put _ _ _ (fun y hy => ⟨y, hy, .refl y⟩) hs
        | ok u =>
          simp only at hs ⊢
          rcases hc : Slot.changeLoop (Token.userOf ut) sl.sessions with ⟨r, ss⟩
          rw [hc] at hs
          simp only at hs ⊢
          cases r with
          | none => exact put _ _ _ (fun y hy => changeLoop_ops hc hy) hs
          | some r =>
            refine put _ _ _ (fun y hy => ?_) hs
            obtain ⟨z, hz, hzy⟩ := invalidate_ops hy
            obtain ⟨w, hw, hwz⟩ := changeLoop_ops hc hz
            exact ⟨w, hw, hwz.trans hzy⟩
  | logout k =>
    unfold step at hs ⊢
    simp only at hs ⊢
    unfold fnLogout at hs ⊢
    cases hg : s.getSession k with
    | error r => rw [hg] at hs; exact same _ _ hs (fun _ h => nomatch h) (fun _ h => nomatch h) (fun _ _ h => nomatch h)
    | ok p =>
      obtain ⟨j, sl, x⟩ := p
      rw [hg] at hs
      simp only at hs ⊢
      obtain ⟨_, _, hsl, hx⟩ := getSession_ok hg
      have put : ∀ (a : Out) (t : Token) (l : List (Nat × Session)),
          (∀ y, AMap.get l h = some y → ∃ x, AMap.get sl.sessions h = some x ∧ SameOps x y) →
          AMap.get (s.setSlot j ⟨t, l⟩).slots i = some sl' →
          SessMove M C O e s h i y (.logout k) a := by
        intro a t l hl hs
        rw [get_setSlot hsl] at hs
        by_cases e1 : j = i
        · subst e1
          rw [if_pos rfl] at hs
          injection hs with hs; subst hs
          obtain ⟨x, h1, h2⟩ := hl y hy
          exact .kept _ _ sl x hsl h1 h2 (fun _ h => nomatch h) (fun _ h => nomatch h) (fun _ _ h => nomatch h)
        · rw [if_neg e1] at hs
          exact same _ _ hs (fun _ h => nomatch h) (fun _ h => nomatch h) (fun _ _ h => nomatch h)
      by_cases h2 : (!sl.token.isInitialized) = true
      · simp only [if_pos h2] at hs; exact same _ _ hs (fun _ h => nomatch h) (fun _ h => nomatch h) (fun _ _ h => nomatch h)
      simp only [if_neg h2] at hs ⊢
      rcases hlog : sl.token.logout e with ⟨r, t⟩
      rw [hlog] at hs
      simp only at hs ⊢
      cases r with
      | ok u => exact put _ _ _ (fun y hy => invalidate_ops hy) hs
      | error r => exact put _ _ _ (fun y hy => ⟨y, hy, .refl y⟩) hs
  | initToken j pin l =>
    unfold step at hs ⊢
    simp only at hs ⊢
    unfold fnInitToken at hs ⊢
    cases hg : s.getSlot j with
    | error r => rw [hg] at hs; exact same _ _ hs (fun _ h => nomatch h) (fun _ h => nomatch h) (fun _ _ h => nomatch h)
    | ok sl =>
      rw [hg] at hs
      simp only at hs ⊢
      have hsl := (getSlot_ok hg).2
      by_cases h2 : sl.sessions ≠ []
      · simp only [if_pos h2] at hs; exact same _ _ hs (fun _ h => nomatch h) (fun _ h => nomatch h) (fun _ _ h => nomatch h)
      simp only [if_neg h2] at hs ⊢
      have hs' : ∃ t, AMap.get (s.setSlot j ⟨t, sl.sessions⟩).slots i = some sl' := by
        repeat' split at hs
        all_goals exact ⟨_, hs⟩
      obtain ⟨t, hs'⟩ := hs'
      rw [get_setSlot hsl] at hs'
      by_cases e1 : j = i
      · rw [if_pos e1] at hs'
        injection hs' with hs'; subst hs'
        rw [Classical.not_not.1 h2] at hy; cases hy
      · rw [if_neg e1] at hs'
        exact same _ _ hs' (fun _ h => nomatch h) (fun _ h => nomatch h) (fun _ _ h => nomatch h)
  | getTokenInfo j =>
    unfold step at hs ⊢
    simp only at hs ⊢
    split at hs <;> exact same _ _ hs (fun _ h => nomatch h) (fun _ h => nomatch h) (fun _ _ h => nomatch h)
  | sess k sc =>
    unfold step at hs ⊢
    simp only at hs ⊢
    cases hg : s.getSession k with
    | error r =>
      rw [hg] at hs
      simp only at hs
      refine same _ _ hs (fun _ h => nomatch h) ?_ (fun _ _ h => nomatch h)
      intro sc' he
      injection he with he _; subst he
      have hm := (hi.link k i).2 ⟨sl', y, hs, hy⟩
      obtain ⟨sl, x, h1, _⟩ := getSession_live hi hm
      rw [hg] at h1; cases h1
    | ok p =>
      obtain ⟨j, sl, x⟩ := p
      rw [hg] at hs
      simp only at hs ⊢
      obtain ⟨_, hm, hsl, hx⟩ := getSession_ok hg
      rw [get_setSlot hsl] at hs
      by_cases e1 : j = i
      · subst e1
        rw [if_pos rfl] at hs
        injection hs with hs; subst hs
        simp only [AMap.get_modify] at hy
        by_cases e2 : k = h
        · subst e2
          rw [if_pos rfl, hx] at hy
          injection hy with hy
          exact .sess sc sl x hg hy.symm
        · rw [if_neg e2] at hy
          exact .kept _ _ sl y hsl hy (.refl y) (fun _ h => nomatch h)
            (fun _ h => by injection h with h _; exact e2 h) (fun _ _ h => nomatch h)
      · rw [if_neg e1] at hs
        refine same _ _ hs (fun _ h => nomatch h) (fun _ h => ?_) (fun _ _ h => nomatch h)
        injection h with h _; subst h
        have hm' := (hi.link k i).2 ⟨sl', y, hs, hy⟩
        rw [hm] at hm'; injection hm' with hm'; exact e1 hm'
  | op k oc =>
    unfold step at hs ⊢
    simp only at hs ⊢
    cases hg : s.getSession k with
    | error r =>
      rw [hg] at hs
      simp only at hs
      refine same _ _ hs ?_ (fun _ h => nomatch h) (fun _ _ h => nomatch h)
      intro sc' he
      injection he with he _; subst he
      have hm := (hi.link k i).2 ⟨sl', y, hs, hy⟩
      obtain ⟨sl, x, h1, _⟩ := getSession_live hi hm
      rw [hg] at h1; cases h1
    | ok p =>
      obtain ⟨j, sl, x⟩ := p
      rw [hg] at hs
      simp only at hs ⊢
      obtain ⟨_, hm, hsl, hx⟩ := getSession_ok hg
      rw [get_setSlot hsl] at hs
      by_cases e1 : j = i
      · subst e1
        rw [if_pos rfl] at hs
        injection hs with hs; subst hs
        simp only [AMap.get_modify] at hy
        by_cases e2 : k = h
        · subst e2
          rw [if_pos rfl, hx] at hy
          injection hy with hy
          exact .op oc sl x hg hy.symm
        · rw [if_neg e2] at hy
          exact .kept _ _ sl y hsl hy (.refl y) (fun _ h => by injection h with h _; exact e2 h)
            (fun _ h => nomatch h) (fun _ _ h => nomatch h)
      · rw [if_neg e1] at hs
        refine same _ _ hs (fun _ h => ?_) (fun _ h => nomatch h) (fun _ _ h => nomatch h)
        injection h with h _; subst h
        have hm' := (hi.link k i).2 ⟨sl', y, hs, hy⟩
        rw [hm] at hm'; injection hm' with hm'; exact e1 hm'
  | crash => cases hs

end Kry
