import Verif.Proofs.Handles
import Verif.Spec.Objects

/-!
# What one step of the machine does to a token

Every step is, for each slot, a sequence of primitive changes of its token.
-/

namespace Kry
open Spec

/-- A primitive change of a token by any call; `I` tells whether C_InitToken is allowed. -/
inductive TPrim (C : Crypto) (k : Nat) (D : Nat → Prop) (N : Obj → Prop) (I : Prop) (W : Nat → Template → Prop) : Token → Token → Prop where
  | act {a b : Token} (x : TAct C ⟨True, W, True⟩ k D N a b) : TPrim C k D N I W a b
  | login (e : Env) (ut : Nat) (pin : Bytes) (t : Token) : TPrim C k D N I W t (t.login C e ut pin).2
  | logout (e : Env) (t : Token)
      (hd : t.logged ≠ none → ∀ n o, AMap.get t.sess n = some o → o.session ≠ 0 → o.isPrivate = true → D n) :
      TPrim C k D N I W t (t.logout e).2
  | drop (h : Nat) (t : Token) (hd : ∀ n o, AMap.get t.sess n = some o → o.session = h → D n) :
      TPrim C k D N I W t (t.dropSessionObjects h)
  | initTok (e : Env) (pin label : Bytes) (t : Token) (hi : I) : TPrim C k D N I W t (t.initToken C e pin label).2

/-- A sequence of them. -/
inductive TPath (C : Crypto) (k : Nat) (D : Nat → Prop) (N : Obj → Prop) (I : Prop) (W : Nat → Template → Prop) : Token → Token → Prop where
  | refl (t : Token) : TPath C k D N I W t t
  | tail {a b c : Token} : TPath C k D N I W a b → TPrim C k D N I W b c → TPath C k D N I W a c

section
variable {C : Crypto} {k : Nat} {D : Nat → Prop} {N : Obj → Prop} {I : Prop} {W : Nat → Template → Prop}

theorem TPrim.path {a b : Token} (x : TPrim C k D N I W a b) : TPath C k D N I W a b := .tail (.refl a) x

theorem TPath.trans {a b c : Token} (x : TPath C k D N I W a b) (y : TPath C k D N I W b c) : TPath C k D N I W a c := by
  induction y with
  | refl => exact x
  | tail _ z ih => exact .tail ih z

theorem TActs.path {a b : Token} (x : TActs C ⟨True, W, True⟩ k D N a b) : TPath C k D N I W a b := by
  induction x with
  | refl => exact .refl _
  | tail _ z ih => exact .tail ih (.act z)

theorem TPath.rel {R : Token → Token → Prop} (hr : ∀ a, R a a)
    (ht : ∀ a b c, R a b → R b c → R a c) (hp : ∀ a b, TPrim C k D N I W a b → R a b) {a b : Token}
    (x : TPath C k D N I W a b) : R a b := by
  induction x with
  | refl => exact hr _
  | tail _ z ih => exact ht _ _ _ ih (hp _ _ z)

theorem TPath.inv {P : Token → Prop}
    (hp : ∀ a b, TPrim C k D N I W a b → P a → P b) {a b : Token} (x : TPath C k D N I W a b) (ha : P a) : P b :=
  TPath.rel (R := fun a b => P a → P b) (fun _ h => h) (fun _ _ _ f g h => g (f h)) hp x ha

theorem logout_sub (e : Env) (t : Token) (n : Nat) (o : Obj) (h : AMap.get (t.logout e).2.sess n = some o) :
    AMap.get t.sess n = some o := by
  unfold Token.logout at h
  split at h
  · exact h
  · simp only [Token.clearPrivate] at h
    have : AMap.get (List.foldl AMap.erase t.sess ((t.sess.filter fun p =>
        p.2.session ≠ 0 ∧ p.2.isPrivate = true).map Prod.fst)) n = some o := by
      split at h <;> exact h
    rw [get_eraseAll] at this
    split at this
    · cases this
    · exact this

theorem drop_sub (h : Nat) (t : Token) (n : Nat) (o : Obj)
    (hg : AMap.get (t.dropSessionObjects h).sess n = some o) : AMap.get t.sess n = some o := by
  unfold Token.dropSessionObjects at hg
  simp only [get_eraseAll] at hg
  split at hg
  · cases hg
  · exact hg

theorem dropAll_sub (l : List Nat) (t : Token) (n : Nat) (o : Obj)
    (hg : AMap.get (l.foldl Token.dropSessionObjects t).sess n = some o) : AMap.get t.sess n = some o := by
  induction l generalizing t with
  | nil => exact hg
  | cons h l ih => exact drop_sub h t n o (ih _ hg)

theorem path_dropAll (l : List Nat) (t : Token)
    (hd : ∀ n o, AMap.get t.sess n = some o → o.session ∈ l → D n) :
    TPath C k D N I W t (l.foldl Token.dropSessionObjects t) := by
  induction l generalizing t with
  | nil => exact .refl t
  | cons h l ih =>
    refine (TPrim.path (.drop h t fun n o ho e => hd n o ho (by rw [e]; exact List.mem_cons_self ..))).trans (ih _ ?_)
    intro n o ho e
    exact hd n o (drop_sub h t n o ho) (List.mem_cons_of_mem _ e)

end

variable {C : Crypto}

/-- The slot after `setSlot`. -/
theorem get_setSlot {s : St} {i j : Nat} {sl sl' : Slot} (hs : AMap.get s.slots i = some sl) :
    AMap.get (s.setSlot i sl').slots j = if i = j then some sl' else AMap.get s.slots j := by
  unfold St.setSlot
  simp only [AMap.get_modify]
  by_cases e : i = j
  · subst e; simp [hs]
  · simp [e]

theorem initSlots_keep {e : Env} {conf : List (Nat × TokCfg)} {s : St} {b : Bool} {m i : Nat} {sl : Slot}
    (hs : AMap.get s.slots i = some sl) : AMap.get (initSlots C e s b conf m).2.slots i = some sl := by
  induction conf generalizing s b m with
  | nil => exact hs
  | cons p conf ih =>
    obtain ⟨j, cfg⟩ := p
    unfold initSlots
    simp only
    split
    · exact hs
    · split
      · exact ih hs
      · refine ih ?_
        show AMap.get (s.slots ++ _) i = some sl
        rw [AMap.get_append, hs]

/-- What a destroy call leaves when it fails. -/
theorem fnDestroy_err {e : Env} {x : Session} {t : Token} {n : Nat} {r : Rv}
    (h : (fnDestroy C e x t n).1 = .error r) : (fnDestroy C e x t n).2 = t := by
  revert h
  unfold fnDestroy Token.destroyObject
  repeat' split
  all_goals (intro h; first | rfl | (cases h; done))

theorem out_ok {r : Res Unit} (h : Out.of r = .ok) : r = .ok () := by
  cases r with
  | error r => cases h
  | ok _ => rfl

theorem get_setSlot_ne {s : St} {i j : Nat} {sl : Slot} (h : i ≠ j) :
    AMap.get (s.setSlot i sl).slots j = AMap.get s.slots j := by
  unfold St.setSlot
  simp only [AMap.get_modify, if_neg h]

section
variable {M : Mechs} {O : Oracle}

/-- The objects a call may add to the token of a slot. -/
inductive MadeBy (M : Mechs) (C : Crypto) (O : Oracle) (e : Env) (sl : Slot) : Call → Obj → Prop where
  | sess {h : Nat} {c : SCall} {x : Session} {o : Obj} (hx : AMap.get sl.sessions h = some x)
      (m : MadeS C O e x sl.token c o) : MadeBy M C O e sl (.sess h c) o
  | op {h : Nat} {c : OCall} {x : Session} {o : Obj} (hx : AMap.get sl.sessions h = some x)
      (m : MadeO M e x c o) : MadeBy M C O e sl (.op h c) o

theorem MadeBy.makes {M : Mechs} {C : Crypto} {O : Oracle} {e : Env} {sl : Slot} {c : Call} {o : Obj}
    (m : MadeBy M C O e sl c o) : Spec.makes c = true := by
  cases m with
  | sess hx m => exact m.makes
  | op hx m => exact m.makes

/-- The attributes a call may set on which objects: those of C_SetAttributeValue, and those a mechanism updates. -/
def SetBy (M : Mechs) (c : Call) (n : Nat) (tm : Template) : Prop :=
  (∃ h, c = .sess h (.setAttr n tm)) ∨
  ∃ h k, c = .op h k ∧ ∃ e k a op i, (M.run e k a op i).2.upd = some (n, tm)

/-- Conclusion of `step_path`. -/
def Moves (M : Mechs) (C : Crypto) (O : Oracle) (e : Env) (i : Nat) (sl : Slot) (c : Call) (p : Out × St) : Prop :=
  ∃ sl', AMap.get p.2.slots i = some sl' ∧
    TPath C (caller c) (fun n => Ends i sl n c p.1 ∨ sl.token.handles.next ≤ n) (MadeBy M C O e sl c)
      (∃ pin l, c = .initToken i pin l) (SetBy M c) sl.token sl'.token

theorem moves_same {i : Nat} {sl : Slot} {c : Call} {p : Out × St} (h : AMap.get p.2.slots i = some sl) :
    Moves M C O e i sl c p := ⟨sl, h, .refl _⟩

theorem path_close {e : Env} {s : St} {h i : Nat} {sl : Slot} (hi : Inv s)
    (hs : AMap.get s.slots i = some sl) : Moves M C O e i sl (.closeSession h) (fnClose e s h) := by
  unfold fnClose
  split
  · exact moves_same hs
  · rename_i j slj hg
    obtain ⟨hr, hm, hj⟩ := getSessionSlot_ok hg
    split
    · exact moves_same hs
    · by_cases ij : j = i
      · subst ij
        rw [hs] at hj; injection hj with hj; subst hj
        refine ⟨_, (get_setSlot hs).trans (if_pos rfl), ?_⟩
        have d1 : TPath C 0 (fun n => Ends j sl n (.closeSession h) .ok ∨ sl.token.handles.next ≤ n) (MadeBy M C O e sl (.closeSession h))
            (∃ pin l, Call.closeSession h = .initToken j pin l) (SetBy M (.closeSession h)) sl.token (sl.token.dropSessionObjects h) :=
          TPrim.path (.drop h _ fun n o ho e => .inl (.close h o ho e))
        show TPath C 0 _ _ _ _ _ (if AMap.erase sl.sessions h = [] then _ else _)
        split
        · rename_i hn
          refine d1.trans (TPrim.path (.logout e _ ?_))
          intro _ n o ho h1 h2
          obtain ⟨sl1, x, hx1, hx⟩ := (hi.link h j).1 hm
          rw [hs] at hx1; injection hx1 with hx1; subst hx1
          refine .inl (.closeLast h x hx ?_ ⟨o, drop_sub h _ n o ho, h1, h2⟩)
          intro h' y hy
          by_cases e : h = h'
          · exact e.symm
          · have : AMap.get (AMap.erase sl.sessions h) h' = some y := by
              rw [AMap.get_erase, if_neg e]; exact hy
            rw [hn] at this; cases this
        · exact d1
      · exact moves_same ((get_setSlot_ne ij).trans hs)

theorem path_closeAll {e : Env} {s : St} {i j : Nat} {sl : Slot}
    (hi : Inv s) (hs : AMap.get s.slots i = some sl) : Moves M C O e i sl (.closeAll j) (fnCloseAll e s j) := by
  unfold fnCloseAll
  split
  · exact moves_same hs
  · simp only
    split
    · exact moves_same hs
    · rename_i slj hg
      obtain ⟨hr, hj⟩ := getSlot_ok hg
      have hj : AMap.get s.slots j = some slj := hj
      have hs' : AMap.get ({ s with smap := AMap.retain s.smap fun _ v => v ≠ j } : St).slots i = some sl := hs
      by_cases ij : j = i
      · subst ij
        rw [hs] at hj; injection hj with hj; subst hj
        split
        · exact ⟨_, (get_setSlot hs').trans (if_pos rfl), .refl _⟩
        · refine ⟨_, (get_setSlot hs').trans (if_pos rfl), ?_⟩
          have hw : ∀ n o, AMap.get sl.token.sess n = some o → o.session ∈ AMap.keys sl.sessions →
              o.session ≠ 0 := by
            intro n o _ hm h0
            obtain ⟨x, hx⟩ := AMap.mem_keys.1 hm
            have := hi.bound _ _ ((hi.link _ j).2 ⟨sl, x, hs, hx⟩)
            omega
          refine (path_dropAll _ _ fun n o ho e => .inl (.closeAll o ho (hw n o ho e))).trans
            (TPrim.path (.logout e _ ?_))
          intro _ n o ho h1 h2
          exact .inl (.closeAll o (dropAll_sub _ _ n o ho) h1)
      · split
        all_goals exact moves_same ((get_setSlot_ne ij).trans hs')

theorem login_sess (e : Env) (t : Token) (ut : Nat) (pin : Bytes) : (t.login C e ut pin).2.sess = t.sess :=
  (login_hs e t ut pin).1

theorem path_login {e : Env} {s : St} {h i ut : Nat} {pin : Bytes} {sl : Slot}
    (hs : AMap.get s.slots i = some sl) : Moves M C O e i sl (.login h ut pin) (fnLogin C e s h ut pin) := by
  unfold fnLogin
  split
  · exact moves_same hs
  · rename_i j slj x hg
    obtain ⟨hr, hm, hj, hx⟩ := getSession_ok hg
    by_cases ij : j = i
    · subst ij
      rw [hs] at hj; injection hj with hj; subst hj
      have lo : ∀ (D : Nat → Prop) (N : Obj → Prop) (I : Prop) (W : Nat → Template → Prop), TPath C 0 D N I W sl.token (sl.token.login C (e.sub 0) ut pin).2 :=
        fun D N I W => TPrim.path (.login _ _ _ _)
      have ls := login_sess (C := C) (e.sub 0) sl.token ut pin
      generalize sl.token.login C (e.sub 0) ut pin = p at lo ls ⊢
      obtain ⟨r, t⟩ := p
      have lo2 : ∀ r, TPath C 0 (fun n => Ends j sl n (.login h ut pin) (.err r) ∨ sl.token.handles.next ≤ n) (MadeBy M C O e sl (.login h ut pin))
          (∃ p l, Call.login h ut pin = .initToken j p l) (SetBy M (.login h ut pin)) sl.token (t.logout (e.sub 1)).2 := by
        intro r
        refine (lo _ _ _ _).trans (TPrim.path (.logout _ _ ?_))
        intro _ n o ho h1 h2
        simp only at ls
        rw [ls] at ho
        exact .inl (.badLogin h ut pin r x hx ⟨o, ho, h1, h2⟩)
      simp only
      repeat' split
      all_goals first
        | exact moves_same hs
        | exact ⟨_, (get_setSlot hs).trans (if_pos rfl), lo _ _ _ _⟩
        | exact ⟨_, (get_setSlot hs).trans (if_pos rfl), lo2 _⟩
    · repeat' split
      all_goals first
        | exact moves_same hs
        | exact moves_same ((get_setSlot_ne ij).trans hs)

theorem path_logout {e : Env} {s : St} {h i : Nat} {sl : Slot}
    (hs : AMap.get s.slots i = some sl) : Moves M C O e i sl (.logout h) (fnLogout e s h) := by
  unfold fnLogout
  split
  · exact moves_same hs
  · rename_i j slj x hg
    obtain ⟨hr, hm, hj, hx⟩ := getSession_ok hg
    by_cases ij : j = i
    · subst ij
      rw [hs] at hj; injection hj with hj; subst hj
      have lo : ∀ (r : Out) (N : Obj → Prop) (I : Prop) (W : Nat → Template → Prop), TPath C 0 (fun n => Ends j sl n (.logout h) r ∨ sl.token.handles.next ≤ n) N I W
          sl.token (sl.token.logout e).2 :=
        fun r N I W => TPrim.path (.logout _ _ fun _ n o ho h1 h2 => .inl (.logout h r x hx ⟨o, ho, h1, h2⟩))
      generalize sl.token.logout e = p at lo ⊢
      obtain ⟨r, t⟩ := p
      split
      · exact moves_same hs
      · cases r <;> exact ⟨_, (get_setSlot hs).trans (if_pos rfl), lo _ _ _ _⟩
    · repeat' split
      all_goals first
        | exact moves_same hs
        | exact moves_same ((get_setSlot_ne ij).trans hs)

theorem path_initToken {e : Env} {s : St} {i j : Nat} {pin : Bytes} {l : Option Bytes} {sl : Slot}
    (hs : AMap.get s.slots i = some sl) : Moves M C O e i sl (.initToken j pin l) (fnInitToken C e s j pin l) := by
  unfold fnInitToken
  split
  · exact moves_same hs
  · rename_i slj hg
    obtain ⟨hr, hj⟩ := getSlot_ok hg
    split
    · exact moves_same hs
    · extract_lets lab
      by_cases ij : j = i
      · subst ij
        rw [hs] at hj; injection hj with hj; subst hj
        have lo : ∀ (D : Nat → Prop) (N : Obj → Prop) (W : Nat → Template → Prop), TPath C 0 D N (∃ p l', Call.initToken j pin l = .initToken j p l')
            W sl.token (sl.token.initToken C e pin lab).2 :=
          fun D N W => TPrim.path (.initTok _ _ _ _ ⟨pin, l, rfl⟩)
        generalize sl.token.initToken C e pin lab = p at lo ⊢
        obtain ⟨r, t⟩ := p
        simp only
        repeat' split
        all_goals exact ⟨_, (get_setSlot hs).trans (if_pos rfl), lo _ _ _⟩
      · generalize slj.token.initToken C e pin lab = p
        obtain ⟨r, t⟩ := p
        simp only
        repeat' split
        all_goals exact moves_same ((get_setSlot_ne ij).trans hs)

theorem path_sess {e : Env} {s : St} {h i : Nat} {c : SCall} {sl : Slot}
    (hs : AMap.get s.slots i = some sl) : Moves M C O e i sl (.sess h c) (step M C O e s (.sess h c)) := by
  unfold step
  simp only
  split
  · exact moves_same hs
  · rename_i j slj x hg
    obtain ⟨hr, hm, hj, hx⟩ := getSession_ok hg
    by_cases ij : j = i
    · subst ij
      rw [hs] at hj; injection hj with hj; subst hj
      refine ⟨_, (get_setSlot hs).trans (if_pos rfl), ?_⟩
      by_cases hd : ∃ n r, c = .destroyObject n ∧ (fnDestroy C e x sl.token n).1 = .error r
      · obtain ⟨n, r, rfl, hr⟩ := hd
        simp only [sessStep]
        rw [fnDestroy_err hr]
        exact .refl _
      · refine TActs.path ((acts_sessMadeW (Z := ⟨True, SetBy M (.sess h c), True⟩) O e c x sl.token ?_ (fun _ => trivial) (fun n tm hc => .inl ⟨h, by rw [hc]⟩) (fun _ => trivial) ?_).mono fun _ m => .sess hx m)
        · intro n hc
          subst hc
          cases hr : (fnDestroy C e x sl.token n).1 with
          | error r => exact absurd ⟨n, r, rfl, hr⟩ hd
          | ok _ =>
            simp only [sessStep, hr]
            exact .inl (.destroy h x hx)
        · intro old new hc hl n o ho h1 h2
          subst hc
          exact .inl (.setPin h old new _ x hx hl ⟨o, ho, h1, h2⟩)
    · exact moves_same ((get_setSlot_ne ij).trans hs)

theorem path_op {e : Env} {s : St} {h i : Nat} {c : OCall} {sl : Slot}
    (hs : AMap.get s.slots i = some sl) : Moves M C O e i sl (.op h c) (step M C O e s (.op h c)) := by
  unfold step
  simp only
  split
  · exact moves_same hs
  · rename_i j slj x hg
    obtain ⟨hr, hm, hj, hx⟩ := getSession_ok hg
    by_cases ij : j = i
    · subst ij
      rw [hs] at hj; injection hj with hj; subst hj
      refine ⟨_, (get_setSlot hs).trans (if_pos rfl), ?_⟩
      exact TActs.path ((acts_opMadeW (Z := ⟨True, SetBy M (.op h c), True⟩) M _ _ _ _ (fun n hn => .inr hn) (fun e k a op i n tm hu => .inr ⟨h, c, rfl, e, k, a, op, i, hu⟩)).mono fun _ m => .op hx m)
    · exact moves_same ((get_setSlot_ne ij).trans hs)

/-- One step, seen from a slot. -/
theorem step_path {e : Env} {s : St} {i : Nat} {c : Call} {sl : Slot} (hi : Inv s)
    (hs : AMap.get s.slots i = some sl) (h1 : c ≠ .finalize) (h2 : c ≠ .crash) :
    Moves M C O e i sl c (step M C O e s c) := by
  cases c with
  | «initialize» conf =>
    refine moves_same ?_
    show AMap.get (fnInitialize C e s conf).2.slots i = some sl
    unfold fnInitialize
    by_cases h : s.ready = true
    · rw [if_pos h]; exact initSlots_keep hs
    · have := (hi.off (by simpa [St.ready] using h)).1
      rw [this] at hs; cases hs
  | finalize => exact absurd rfl h1
  | openSession j f =>
    show Moves M C O e i sl _ (fnOpen s j f)
    unfold fnOpen
    split
    · exact moves_same hs
    · rename_i slj hg
      obtain ⟨hr, hj⟩ := getSlot_ok hg
      repeat' split
      all_goals first | exact moves_same hs | skip
      by_cases ij : j = i
      · subst ij
        rw [hs] at hj; injection hj with hj; subst hj
        exact ⟨_, (get_setSlot hs).trans (if_pos rfl), .refl _⟩
      · exact moves_same ((get_setSlot_ne ij).trans hs)
  | closeSession h => exact path_close hi hs
  | closeAll j => exact path_closeAll hi hs
  | login h ut pin => exact path_login hs
  | logout h => exact path_logout hs
  | initToken j pin l => exact path_initToken hs
  | getTokenInfo j =>
    simp only [step]
    split <;> exact moves_same hs
  | sess h c => exact path_sess hs
  | op h c => exact path_op hs
  | crash => exact absurd rfl h2

/-- A slot that appears comes from a fresh token on its file. -/
theorem initSlots_new {e : Env} {conf : List (Nat × TokCfg)} {s : St} {b : Bool} {m i : Nat} {sl : Slot}
    (hn : AMap.get s.slots i = none) (hs : AMap.get (initSlots C e s b conf m).2.slots i = some sl) :
    ∃ e' cfg, (i, cfg) ∈ conf ∧ sl.sessions = [] ∧ Token.new C e' (match AMap.get s.disks i with
      | some d => d
      | none => Db.empty) cfg = .ok sl.token := by
  induction conf generalizing s b m with
  | nil => rw [show AMap.get (initSlots C e s b [] m).2.slots i = AMap.get s.slots i from rfl, hn] at hs; cases hs
  | cons p conf ih =>
    obtain ⟨j, cfg⟩ := p
    unfold initSlots at hs
    simp only at hs
    split at hs
    · rw [hn] at hs; cases hs
    · rename_i t ht
      split at hs
      · obtain ⟨e', cfg', h1, h2⟩ := ih hn hs
        exact ⟨e', cfg', List.mem_cons_of_mem _ h1, h2⟩
      · rename_i hj
        by_cases ij : j = i
        · subst ij
          rw [hj] at ht
          have g : AMap.get (s.slots ++ [(j, (⟨t, []⟩ : Slot))]) j = some ⟨t, []⟩ := by
            rw [AMap.get_append, hn]; simp [AMap.get_cons]
          rw [initSlots_keep (sl := ⟨t, []⟩) g] at hs
          injection hs with hs; subst hs
          exact ⟨_, cfg, List.mem_cons_self .., rfl, ht⟩
        · have g : AMap.get (s.slots ++ [(j, (⟨t, []⟩ : Slot))]) i = none := by
            rw [AMap.get_append, hn]; simp [AMap.get_cons, ij]
          obtain ⟨e', cfg', h1, h2⟩ := ih (s := { s with slots := s.slots ++ [(j, ⟨t, []⟩)] }) g hs
          exact ⟨e', cfg', List.mem_cons_of_mem _ h1, h2⟩

theorem step_new {e : Env} {s : St} {i : Nat} {c : Call} {sl : Slot}
    (hn : AMap.get s.slots i = none) (hs : AMap.get (step M C O e s c).2.slots i = some sl) :
    ∃ e' cfg conf, c = .initialize conf ∧ (i, cfg) ∈ conf ∧ sl.sessions = [] ∧
      Token.new C e' (match AMap.get s.disks i with
      | some d => d
      | none => Db.empty) cfg = .ok sl.token := by
  have set : ∀ {j : Nat} {slj : Slot}, AMap.get (s.setSlot j slj).slots i = none := by
    intro j slj
    unfold St.setSlot
    simp only [AMap.get_modify]
    split <;> simp [hn]
  cases c with
  | «initialize» conf =>
    have hs : AMap.get (fnInitialize C e s conf).2.slots i = some sl := hs
    unfold fnInitialize at hs
    by_cases h : s.ready = true
    · rw [if_pos h] at hs
      obtain ⟨e', cfg, h1, h2⟩ := initSlots_new hn hs
      exact ⟨e', cfg, conf, rfl, h1, h2⟩
    · rw [if_neg h] at hs
      obtain ⟨e', cfg, h1, h2⟩ := initSlots_new (s := { s with slots := [], smap := [], next := 1 }) rfl hs
      exact ⟨e', cfg, conf, rfl, h1, h2⟩
  | finalize =>
    simp only [step, fnFinalize] at hs
    split at hs
    · rw [hn] at hs; cases hs
    · cases hs
  | crash => cases hs
  | openSession j f =>
    simp only [step, fnOpen] at hs
    repeat' split at hs
    all_goals first | (rw [hn] at hs; cases hs; done) | (rw [set] at hs; cases hs)
  | closeSession h =>
    simp only [step, fnClose] at hs
    repeat' split at hs
    all_goals first | (rw [hn] at hs; cases hs; done) | (rw [set] at hs; cases hs)
  | closeAll j =>
    have set' : ∀ {j : Nat} {m} {slj : Slot}, AMap.get (({ s with smap := m } : St).setSlot j slj).slots i = none := by
      intro j m slj
      exact set (j := j) (slj := slj)
    simp only [step, fnCloseAll] at hs
    repeat' split at hs
    all_goals first
      | (rw [hn] at hs; cases hs; done)
      | (rw [set'] at hs; cases hs; done)
      | (have := hn.symm.trans hs; cases this)
  | login h ut pin =>
    simp only [step, fnLogin] at hs
    repeat' split at hs
    all_goals first | (rw [hn] at hs; cases hs; done) | (rw [set] at hs; cases hs)
  | logout h =>
    simp only [step, fnLogout] at hs
    repeat' split at hs
    all_goals first | (rw [hn] at hs; cases hs; done) | (rw [set] at hs; cases hs)
  | initToken j pin l =>
    simp only [step, fnInitToken] at hs
    repeat' split at hs
    all_goals first | (rw [hn] at hs; cases hs; done) | (rw [set] at hs; cases hs)
  | getTokenInfo j =>
    simp only [step] at hs
    repeat' split at hs
    all_goals (rw [hn] at hs; cases hs)
  | sess h c =>
    simp only [step] at hs
    repeat' split at hs
    all_goals first | (rw [hn] at hs; cases hs; done) | (rw [set] at hs; cases hs)
  | op h c =>
    simp only [step] at hs
    repeat' split at hs
    all_goals first | (rw [hn] at hs; cases hs; done) | (rw [set] at hs; cases hs)

/-- Files of closed slots change only when the library is left. -/
theorem step_disks {e : Env} {s : St} {c : Call} (h1 : c ≠ .finalize) (h2 : c ≠ .crash) :
    (step M C O e s c).2.disks = s.disks := by
  have ini : ∀ conf (s : St) b m, (initSlots C e s b conf m).2.disks = s.disks := by
    intro conf
    induction conf with
    | nil => intros; rfl
    | cons p conf ih =>
      intro s b m
      obtain ⟨j, cfg⟩ := p
      unfold initSlots
      simp only
      split
      · rfl
      · split
        · exact ih ..
        · exact ih ..
  cases c with
  | «initialize» conf =>
    show (fnInitialize C e s conf).2.disks = _
    unfold fnInitialize
    by_cases h : s.ready = true
    · rw [if_pos h]; exact ini ..
    · rw [if_neg h]; exact ini ..
  | finalize => exact absurd rfl h1
  | crash => exact absurd rfl h2
  | openSession j f => simp only [step, fnOpen]; repeat' split
                       all_goals rfl
  | closeSession h => simp only [step, fnClose]; repeat' split
                      all_goals rfl
  | closeAll j => simp only [step, fnCloseAll]; repeat' split
                  all_goals rfl
  | login h ut pin => simp only [step, fnLogin]; repeat' split
                      all_goals rfl
  | logout h => simp only [step, fnLogout]; repeat' split
                all_goals rfl
  | initToken j pin l => simp only [step, fnInitToken]; repeat' split
                         all_goals rfl
  | getTokenInfo j => simp only [step]; repeat' split
                      all_goals rfl
  | sess h c => simp only [step]; repeat' split
                all_goals rfl
  | op h c => simp only [step]; repeat' split
              all_goals rfl

end

end Kry
