import Verif.Proofs.Path

/-!
# Invariant of objects and handles of the machine
-/

namespace Kry
open Spec

/-! ## Searches survive operations -/

/-- An operation leaves the search of its session alone or ends it. -/
def SR (a b : Session) : Prop := b.search = a.search ∨ b.search = none

theorem SR.refl (s : Session) : SR s s := .inl rfl

theorem SR.trans {a b c : Session} (x : SR a b) (y : SR b c) : SR a c := by
  rcases y with y | y
  · rcases x with x | x
    · exact .inl (y.trans x)
    · exact .inr (y.trans x)
  · exact .inr y

macro "sr_s" : tactic => `(tactic| (
  repeat' split
  all_goals first | exact SR.refl _ | exact Or.inl rfl | skip
  all_goals
    simp only
    repeat' split
    all_goals first | exact SR.refl _ | exact Or.inl rfl))

section
variable (M : Mechs) {C : Crypto}

theorem fnFeed_sr (e : Env) (k : OpKind) (d : Bytes) (s : Session) :
    SR s (fnFeed M e k d s).2 := by
  unfold fnFeed; sr_s

theorem fnCrypt_sr (e : Env) (k : OpKind) (a : Act) (i : OpIn) (s : Session) :
    SR s (fnCrypt M e k a i s).2 := by
  unfold fnCrypt; sr_s

theorem fnSign_sr (e : Env) (a : Act) (i : OpIn) (s : Session) (t : Token) :
    SR s (fnSign M C e a i s t).2.1 := by
  unfold fnSign; sr_s

theorem fnVerify_sr (e : Env) (k : OpKind) (a : Act) (i : OpIn) (s : Session) (t : Token) :
    SR s (fnVerify M C e k a i s t).2.1 := by
  unfold fnVerify; sr_s

theorem fnDigest_sr (e : Env) (a : Act) (i : OpIn) (s : Session) : SR s (fnDigest M e a i s).2 := by
  unfold fnDigest; sr_s

theorem fnMessage_sr (e : Env) (k : OpKind) (a : Act) (i : OpIn) (s : Session) (t : Token) :
    SR s (fnMessage M e k a i s t).2 := by
  unfold fnMessage; sr_s

theorem fnDual_sr (e : Env) (k1 k2 : OpKind) (i : OpIn) (s : Session) :
    SR s (fnDual M e k1 k2 i s).2 := by
  unfold fnDual
  split
  · exact .refl s
  · have a := fnCrypt_sr M (e.sub 0) k1 .update i s
    generalize fnCrypt M (e.sub 0) k1 .update i s = p at a ⊢
    obtain ⟨r, s1⟩ := p
    simp only at a ⊢
    split
    · rename_i b
      have c := fnFeed_sr M (e.sub 1) k2 (if k1 = .enc then i.data else b) s1
      generalize fnFeed M (e.sub 1) k2 (if k1 = .enc then i.data else b) s1 = q at c ⊢
      obtain ⟨r, s2⟩ := q
      cases r <;> exact a.trans c
    · exact a

theorem fnCancel_sr (f : Nat) (s : Session) : SR s (fnCancel f s).2 := by
  have c : ∀ (p : Prop) [Decidable p] (k : OpKind) (x : Session), SR s x →
      SR s (if p then x.cancelOp k else x) := by
    intro p _ k x hx; split <;> exact hx
  have d : ∀ (p : Prop) [Decidable p] (x : Session), SR s x →
      SR s (if p then { x with search := none } else x) := by
    intro p _ x hx
    split
    · exact .inr rfl
    · exact hx
  unfold fnCancel
  have h8 : SR s (s.cancelAll f) :=
    c _ _ _ (c _ _ _ (c _ _ _ (c _ _ _ (c _ _ _ (d _ _ (c _ _ _ (c _ _ _ (.refl s))))))))
  split <;> exact h8

theorem opStep_sr (e : Env) (h : Nat) (c : OCall) (s : Session) (t : Token) :
    SR s (opStep M C e h c s t).2.1 := by
  cases c with
  | opInit k mech key sig =>
    cases mech with
    | none => exact .inl rfl
    | some p =>
      obtain ⟨m, param⟩ := p
      simp only [opStep]
      split
      · unfold fnInitDigest; sr_s
      · unfold fnInitKey; sr_s
  | opRun k a i =>
    cases k <;> cases a <;> first
      | exact .refl s
      | exact fnCrypt_sr M _ _ _ _ _
      | exact fnFeed_sr M _ _ _ _
      | exact fnMessage_sr M _ _ _ _ _ _
      | exact fnDigest_sr M _ _ _ _
      | exact fnSign_sr M _ _ _ _ _
      | exact fnVerify_sr M _ _ _ _ _ _
  | digestKey key =>
    simp only [opStep]
    unfold fnDigestKey
    repeat' split
    all_goals first | exact SR.refl _ | exact fnFeed_sr M _ _ _ _
  | digestEncrypt i => exact fnDual_sr M _ _ _ _ _
  | decryptDigest i => exact fnDual_sr M _ _ _ _ _
  | signEncrypt i => exact fnDual_sr M _ _ _ _ _
  | decryptVerify i => exact fnDual_sr M _ _ _ _ _
  | cancel f => exact fnCancel_sr _ _
  | generatePair m p pub priv => simp only [opStep]; split <;> exact .refl s
  | derive m p key tm => simp only [opStep]; split <;> exact .refl s
  | _ => exact .refl s

end

/-! ## New tokens -/

section
variable {C : Crypto}

theorem go_builtin (e : Env) (t : Token) (cls ty id : Nat) :
    HGo 0 (fun _ => False) t (t.insertBuiltin C e cls ty id).2 := by
  unfold Token.insertBuiltin
  split
  · exact .refl t
  · split
    · exact .refl t
    · rename_i F hF _ o ho
      have hz : Zero o := by
        unfold builtinCreate at ho
        split at ho
        · cases ho
        · injection ho with ho
          rw [← ho]
          exact zero_generateUnique (zero_internal (by assumption))
      have a := go_insert (C := C) (k := 0) (D := fun _ => False) e t o hz
      generalize t.insertObject C e 0 o = p at a ⊢
      obtain ⟨r, t1⟩ := p
      cases r <;> exact a

theorem go_builtins (e : Env) (t : Token) (cls ty : Nat) (l : List Nat) (n : Nat) :
    HGo 0 (fun _ => False) t (t.insertBuiltins C e cls ty l n).2 := by
  induction l generalizing t n with
  | nil => exact .refl t
  | cons id l ih =>
    unfold Token.insertBuiltins
    have a := go_builtin (C := C) (e.sub n) t cls ty id
    generalize t.insertBuiltin C (e.sub n) cls ty id = p at a ⊢
    obtain ⟨r, t1⟩ := p
    cases r with
    | error r => exact a
    | ok _ => exact HGo.trans _ _ _ a (ih t1 (n + 1))

theorem go_internal (e : Env) (t : Token) : HGo 0 (fun _ => False) t (t.internalInit C e).2 := by
  unfold Token.internalInit
  have a := go_builtins (C := C) (e.sub 0) t CKO_PROFILE CKA_PROFILE_ID Token.profiles 0
  generalize t.insertBuiltins C (e.sub 0) CKO_PROFILE CKA_PROFILE_ID Token.profiles 0 = p at a ⊢
  obtain ⟨r, t1⟩ := p
  cases r with
  | error r => exact a
  | ok _ => exact HGo.trans _ _ _ a (go_builtins _ _ _ _ _ _)

/-- Every object in memory belongs to the token itself. -/
def Plain (t : Token) : Prop := HOk t ∧ ∀ n o, AMap.get t.sess n = some o → o.session = 0

theorem plain_zero (t : Token) (h1 : t.handles = Handles.new) (h2 : t.sess = []) : Plain t := by
  refine ⟨⟨by rw [h1]; exact hsOk_new, by rw [h2]; exact List.nodup_nil, ?_⟩, ?_⟩
  · intro n o h; rw [h2] at h; cases h
  · intro n o h; rw [h2] at h; cases h

theorem Plain.go {a b : Token} {D : Nat → Prop} (h : Plain a) (g : HGo 0 D a b) : Plain b := by
  obtain ⟨h1, h2⟩ := g h.1
  refine ⟨h1, ?_⟩
  intro n o ho
  by_cases hn : n < a.handles.next
  · obtain ⟨o', ho', e⟩ := h2.oldS n o hn ho
    rw [← e]; exact h.2 n o' ho'
  · exact h2.newS n o (Nat.le_of_not_lt hn) ho

theorem Plain.congr {a b : Token} (h : Plain a) (h1 : b.handles = a.handles) (h2 : b.sess = a.sess) :
    Plain b := by
  refine ⟨⟨by rw [h1]; exact h.1.hs, by rw [h2]; exact h.1.nd, ?_⟩, ?_⟩
  · intro n o ho; rw [h2] at ho; rw [h1]; exact h.1.sess n o ho
  · intro n o ho; rw [h2] at ho; exact h.2 n o ho

theorem new_plain {e : Env} {db : Db} {cfg : TokCfg} {t : Token} (h : Token.new C e db cfg = .ok t) :
    Plain t := by
  unfold Token.new at h
  extract_lets src t0 tf sf t' at h
  have h0 : t0.handles = Handles.new ∧ t0.sess = [] := ⟨rfl, rfl⟩
  clear_value t0
  have h1 : ∀ t1, t' = .ok t1 → t1.handles = Handles.new ∧ t1.sess = [] := by
    intro t1 h1
    simp only [t', tf, sf] at h1
    repeat' split at h1
    all_goals first | (cases h1; done) | (injection h1 with h1; rw [← h1]; exact h0)
  clear_value t'
  cases t' with
  | error r => cases h
  | ok t0 =>
    have a := go_internal (C := C) (e.sub 1) t0
    have b := plain_zero t0 (h1 t0 rfl).1 (h1 t0 rfl).2
    simp only at h
    generalize t0.internalInit C (e.sub 1) = p at a h
    obtain ⟨r, t1⟩ := p
    cases r with
    | error r => cases h
    | ok _ =>
      injection h with h; rw [← h]
      exact (b.go a).congr rfl rfl

/-- C_InitToken leaves the objects or a token with only its own. -/
theorem initToken_plain (e : Env) (t : Token) (pin label : Bytes) :
    (((t.initToken C e pin label).2.handles = t.handles ∧ (t.initToken C e pin label).2.sess = t.sess)
      ∨ Plain (t.initToken C e pin label).2) := by
  unfold Token.initToken
  have a : (if t.isInitialized then t.authUser C (e.sub 0) .so pin true else (.ok (), t)).2.sess = t.sess ∧
      (if t.isInitialized then t.authUser C (e.sub 0) .so pin true else (.ok (), t)).2.handles = t.handles := by
    split
    · exact authUser_hs _ _ _ _ _
    · exact ⟨rfl, rfl⟩
  generalize (if t.isInitialized then t.authUser C (e.sub 0) .so pin true else (.ok (), t)) = p at a ⊢
  obtain ⟨r, t1⟩ := p
  cases r with
  | error r => exact .inl ⟨a.2, a.1⟩
  | ok _ =>
    right
    simp only
    generalize t1.store.reinit C (e.sub 1) = q
    obtain ⟨r, st⟩ := q
    have z := plain_zero
      { info := t1.info, handles := Handles.new, store := st, sess := [], logged := none, cfg := t1.cfg } rfl rfl
    cases r with
    | error r => exact z
    | ok info =>
      simp only
      generalize hw : Token.setPin C (e.sub 2) _ (some User.so) pin [] = w
      have b := setPin_hs (C := C) (e.sub 2)
        { info := t1.info, handles := Handles.new, store := st, sess := [], logged := none, cfg := t1.cfg }
        (some User.so) pin []
      rw [hw] at b
      obtain ⟨r, t2⟩ := w
      have z2 : Plain t2 := z.congr b.2 b.1
      simp only
      split
      · exact z2
      · split
        · exact z2.congr rfl rfl
        · split
          · exact z2.congr rfl rfl
          · refine Plain.go ?_ (go_internal _ _)
            exact z2.congr rfl rfl

theorem drop_none {h : Nat} {t : Token} (ok : HOk t) {n : Nat} {o : Obj}
    (hg : AMap.get (t.dropSessionObjects h).sess n = some o) : o.session ≠ h := by
  intro e
  have h0 := drop_sub h t n o hg
  unfold Token.dropSessionObjects at hg
  simp only [get_eraseAll] at hg
  split at hg
  · cases hg
  · rename_i hn
    apply hn
    refine List.mem_map.2 ⟨(n, o), ?_, (ok.sess n o h0).1⟩
    rw [List.mem_filter]
    exact ⟨AMap.get_mem h0, by simpa using e⟩

theorem hok_drop {h : Nat} {t : Token} (ok : HOk t) : HOk (t.dropSessionObjects h) :=
  (go_drop (k := 0) (D := fun _ => True) h t (fun _ _ _ _ => trivial) ok).1

theorem dropAll_none (l : List Nat) {t : Token} (ok : HOk t) {n : Nat} {o : Obj}
    (hg : AMap.get (l.foldl Token.dropSessionObjects t).sess n = some o) : o.session ∉ l := by
  induction l generalizing t with
  | nil => simp
  | cons h l ih =>
    rw [List.mem_cons]
    intro hm
    rcases hm with hm | hm
    · exact drop_none ok (dropAll_sub l _ n o hg) hm
    · exact ih (hok_drop ok) hg hm

/-! ## The invariant -/

/-- Per slot: the token, the owners of session objects, and the pending answers of searches. -/
structure HInv1 (sl : Slot) : Prop where
  ok : HOk sl.token
  owner : ∀ n o, AMap.get sl.token.sess n = some o →
    o.session = 0 ∨ ∃ x, AMap.get sl.sessions o.session = some x
  srch : ∀ h x l, AMap.get sl.sessions h = some x → x.search = some l → ∀ n ∈ l, n < sl.token.handles.next

/-- All slots. -/
def HInv (s : St) : Prop := ∀ i sl, AMap.get s.slots i = some sl → HInv1 sl

theorem go_prim {k : Nat} {D : Nat → Prop} {N : Obj → Prop} {a b : Token} (x : TPrim C k D N False W a b) : HGo k D a b := by
  cases x with
  | act x => exact go_act x
  | login e ut pin => exact .of_eq (login_hs _ _ _ _).1 (login_hs _ _ _ _).2
  | logout e _ hd => exact go_logout e a hd
  | drop h _ hd => exact go_drop h a hd
  | initTok e pin l _ hi => exact hi.elim

theorem go_path {k : Nat} {D : Nat → Prop} {N : Obj → Prop} {a b : Token} (x : TPath C k D N False W a b) : HGo k D a b :=
  TPath.rel HGo.refl HGo.trans (fun _ _ => go_prim) x

/-- Destroying handles that did not exist before does not count. -/
theorem HGo.shrink {k : Nat} {D : Nat → Prop} {a b : Token}
    (x : HGo k (fun n => D n ∨ a.handles.next ≤ n) a b) : HGo k D a b := by
  intro ok
  obtain ⟨h1, h2⟩ := x ok
  refine ⟨h1, ⟨h2.hs.next, h2.hs.old, ?_⟩, h2.oldS, h2.newS, ?_⟩
  · intro n u h hd
    refine h2.hs.keep n u h fun c => ?_
    rcases c with c | c
    · exact hd c
    · exact absurd (ok.hs.low n u h).2 (Nat.not_lt.2 c)
  · intro n o h hd
    refine h2.keepS n o h fun c => ?_
    rcases c with c | c
    · exact hd c
    · obtain ⟨_, u, hu, _⟩ := ok.sess n o h
      exact absurd (ok.hs.low n u hu).2 (Nat.not_lt.2 c)

variable {M : Mechs} {O : Oracle}

theorem TPath.strip {k : Nat} {D : Nat → Prop} {N : Obj → Prop} {I : Prop} (h : ¬ I) {a b : Token}
    (x : TPath C k D N I W a b) : TPath C k D N False W a b := by
  rwa [show I = False from propext ⟨h, False.elim⟩] at x

/-- One step, seen from the handles of a slot. -/
theorem step_go {e : Env} {s : St} {i : Nat} {c : Call} {sl : Slot} (hi : Inv s)
    (hs : AMap.get s.slots i = some sl) (hc : calm i c = true) :
    ∃ sl', AMap.get (step M C O e s c).2.slots i = some sl' ∧
      HGo (caller c) (fun n => Ends i sl n c (step M C O e s c).1) sl.token sl'.token := by
  have h1 : c ≠ .finalize := by intro h; subst h; cases hc
  have h2 : c ≠ .crash := by intro h; subst h; cases hc
  obtain ⟨sl', h3, h4⟩ := step_path (M := M) (C := C) (O := O) (e := e) hi hs h1 h2
  refine ⟨sl', h3, HGo.shrink (go_path (h4.strip ?_))⟩
  rintro ⟨pin, l, rfl⟩
  simp [calm] at hc

/-- The session map after a call. -/
theorem step_smap {e : Env} {s : St} {i h : Nat} {c : Call} (hi : Inv s)
    (hm : AMap.get s.smap h = some i) (h1 : c ≠ .closeSession h) (h2 : c ≠ .closeAll i)
    (h3 : c ≠ .finalize) (h4 : c ≠ .crash) : AMap.get (step M C O e s c).2.smap h = some i := by
  have hr : s.ready = true := by
    have := hi.bound h i hm
    unfold St.ready
    simp; omega
  have ini : ∀ conf (s : St) b m, (initSlots C e s b conf m).2.smap = s.smap := by
    intro conf
    induction conf with
    | nil => intros; rfl
    | cons p conf ih =>
      intro s b m
      obtain ⟨j, cfg⟩ := p
      unfold initSlots
      simp only
      split
      · rfl
      · split
        · exact ih ..
        · exact ih ..
  cases c with
  | «initialize» conf =>
    show AMap.get (fnInitialize C e s conf).2.smap h = _
    unfold fnInitialize
    rw [if_pos hr]
    show AMap.get (initSlots C e s true conf 0).2.smap h = _
    rw [ini]; exact hm
  | finalize => exact absurd rfl h3
  | crash => exact absurd rfl h4
  | openSession j f =>
    simp only [step, fnOpen]
    repeat' split
    all_goals first | exact hm | skip
    show AMap.get (AMap.insert s.smap s.next j) h = _
    rw [AMap.get_insert, if_neg]
    · exact hm
    · have := hi.bound h i hm
      omega
  | closeSession k =>
    simp only [step, fnClose]
    repeat' split
    all_goals first | exact hm | skip
    all_goals
      show AMap.get (AMap.erase s.smap k) h = _
      rw [AMap.get_erase, if_neg]
      · exact hm
      · intro e; subst e; exact h1 rfl
  | closeAll j =>
    have key : AMap.get (AMap.retain s.smap fun _ v => v ≠ j) h = some i := by
      rw [AMap.get_retain _ hi.smapND, hm]
      have : i ≠ j := by intro e; subst e; exact h2 rfl
      simp [this]
    simp only [step, fnCloseAll]
    repeat' split
    all_goals first | exact hm | exact key
  | login h ut pin => simp only [step, fnLogin]; repeat' split
                      all_goals exact hm
  | logout h => simp only [step, fnLogout]; repeat' split
                all_goals exact hm
  | initToken j pin l => simp only [step, fnInitToken]; repeat' split
                         all_goals exact hm
  | getTokenInfo j => simp only [step]; repeat' split
                      all_goals exact hm
  | sess h c => simp only [step]; repeat' split
                all_goals exact hm
  | op h c => simp only [step]; repeat' split
              all_goals exact hm

/-- Calls on sessions of other slots do nothing here. -/
theorem step_other {e : Env} {s : St} {i : Nat} {c : Call} {sl : Slot}
    (hs : AMap.get s.slots i = some sl) (h0 : caller c ≠ 0) (hn : AMap.get sl.sessions (caller c) = none) :
    AMap.get (step M C O e s c).2.slots i = some sl := by
  cases c
  case sess h c =>
    simp only [step]
    split
    · exact hs
    · rename_i j slj x hg
      obtain ⟨hr, hm, hj, hx⟩ := getSession_ok hg
      by_cases ij : j = i
      · subst ij
        rw [hs] at hj; injection hj with hj; subst hj
        have hn : AMap.get sl.sessions h = none := hn
        rw [hn] at hx; cases hx
      · exact (get_setSlot_ne ij).trans hs
  case op h c =>
    simp only [step]
    split
    · exact hs
    · rename_i j slj x hg
      obtain ⟨hr, hm, hj, hx⟩ := getSession_ok hg
      by_cases ij : j = i
      · subst ij
        rw [hs] at hj; injection hj with hj; subst hj
        have hn : AMap.get sl.sessions h = none := hn
        rw [hn] at hx; cases hx
      · exact (get_setSlot_ne ij).trans hs
  all_goals exact absurd rfl h0

theorem hinv_nosess {t : Token} (h : Plain t) : HInv1 ⟨t, []⟩ :=
  ⟨h.1, fun n o ho => .inl (h.2 n o ho), fun h x l hx => (by cases hx)⟩

/-- Owners after a calm call that closes nothing here. -/
theorem owner_calm {e : Env} {s : St} {i : Nat} {c : Call} {sl sl' : Slot} (hi : Inv s)
    (hs : AMap.get s.slots i = some sl) (hv : HInv1 sl) (hc : calm i c = true)
    (hcl : ∀ h, c = .closeSession h → AMap.get sl.sessions h = none) (hca : c ≠ .closeAll i)
    (hs' : AMap.get (step M C O e s c).2.slots i = some sl') :
    ∀ n o, AMap.get sl'.token.sess n = some o → o.session = 0 ∨ ∃ x, AMap.get sl'.sessions o.session = some x := by
  have hi' := inv_step (C := C) M O e s c hi
  have h3 : c ≠ .finalize := by intro h; subst h; cases hc
  have h4 : c ≠ .crash := by intro h; subst h; cases hc
  have surv : ∀ h x, AMap.get sl.sessions h = some x → ∃ x', AMap.get sl'.sessions h = some x' := by
    intro h x hx
    have hm := (hi.link h i).2 ⟨sl, x, hs, hx⟩
    have := step_smap (M := M) (C := C) (O := O) (e := e) (c := c) hi hm
      (by intro e; rw [hcl h e] at hx; cases hx) hca h3 h4
    obtain ⟨sl1, x1, h1, h2⟩ := (hi'.link h i).1 this
    rw [hs'] at h1; injection h1 with h1; subst h1
    exact ⟨x1, h2⟩
  have go : ∀ n o, AMap.get sl'.token.sess n = some o → (∃ o', AMap.get sl.token.sess n = some o' ∧
      o'.session = o.session) ∨ o.session = caller c := by
    intro n o ho
    obtain ⟨sl1, h1, h2⟩ := step_go (M := M) (C := C) (O := O) (e := e) hi hs hc
    rw [hs'] at h1; injection h1 with h1; subst h1
    obtain ⟨_, st⟩ := h2 hv.ok
    by_cases hn : n < sl.token.handles.next
    · exact .inl (st.oldS n o hn ho)
    · exact .inr (st.newS n o (Nat.le_of_not_lt hn) ho)
  intro n o ho
  rcases go n o ho with ⟨o', h1, h2⟩ | h1
  · rcases hv.owner n o' h1 with h | ⟨x, hx⟩
    · exact .inl (h2 ▸ h)
    · rw [h2] at hx; exact .inr (surv _ x hx)
  · rw [h1]
    by_cases h0 : caller c = 0
    · exact .inl h0
    · right
      cases hx : AMap.get sl.sessions (caller c) with
      | some x => exact surv _ x hx
      | none =>
        have := step_other (M := M) (C := C) (O := O) (e := e) hs h0 hx
        rw [hs'] at this; injection this with this; subst this
        rcases hv.owner n o ho with h | ⟨x, h⟩
        · rw [h1] at h; exact absurd h h0
        · rw [h1, hx] at h; cases h

/-! ### Pending search answers -/

theorem searchObjects_valid {e : Env} {t : Token} {tm : Template} {l : List Nat} (ok : HOk t)
    (h : (t.searchObjects e tm).1 = .ok l) : ∀ n ∈ l, ∃ u, (t.searchObjects e tm).2.handles.get n = some u := by
  unfold Token.searchObjects at h ⊢
  simp only at h ⊢
  generalize hx : (if t.loggedIn = true then tm else tm ++ [CkAttr.ofBool CKA_PRIVATE false]) = tm' at h ⊢
  clear hx
  have key : (∀ n u, t.handles.get n = some u → (t.store.search e t.handles tm').2.get n = some u) ∧
      ∀ r, (t.store.search e t.handles tm').1 = .ok r → ∀ n ∈ r, ∃ u,
        (t.store.search e t.handles tm').2.get n = some u := by
    unfold Store.search
    split
    · exact ⟨fun _ _ h => h, fun r hr => by cases hr⟩
    · rename_i objs _
      obtain ⟨_, h2, h3⟩ := hs_searchLoop tm' objs ok.hs
      refine ⟨h2.all, fun r hr n hn => ?_⟩
      obtain ⟨u, hu, _⟩ := h3 r hr n hn
      exact ⟨u, hu⟩
  generalize t.store.search e t.handles tm' = p at h key ⊢
  obtain ⟨r, hd⟩ := p
  cases r with
  | error r => cases h
  | ok r =>
    simp only at h key ⊢
    injection h with h
    subst h
    intro n hn
    rw [List.mem_append] at hn
    rcases hn with hn | hn
    · unfold Token.searchSession at hn
      obtain ⟨q, hq, e1⟩ := List.mem_map.1 hn
      rw [List.mem_filter] at hq
      have hg : AMap.get t.sess q.1 = some q.2 := AMap.get_of_mem ok.nd hq.1
      obtain ⟨e2, u, hu, _⟩ := ok.sess _ _ hg
      rw [← e1, e2]
      exact ⟨u, key.1 _ _ hu⟩
    · exact key.2 r rfl n hn

/-- The searches of the new sessions come from the old ones, or their answers are valid handles. -/
def SrchFrom (l l' : List (Nat × Session)) (t : Token) : Prop :=
  ∀ h x' r, AMap.get l' h = some x' → x'.search = some r →
    (∃ x r0, AMap.get l h = some x ∧ x.search = some r0 ∧ ∀ n ∈ r, n ∈ r0) ∨ ∀ n ∈ r, ∃ u, t.handles.get n = some u

theorem SrchFrom.of {l l' : List (Nat × Session)} {t : Token}
    (hl : ∀ h x', AMap.get l' h = some x' → ∃ x, AMap.get l h = some x ∧ x'.search = x.search) :
    SrchFrom l l' t := by
  intro h x' r hx hr
  obtain ⟨x, h1, h2⟩ := hl h x' hx
  exact .inl ⟨x, r, h1, h2 ▸ hr, fun _ h => h⟩

theorem SrchFrom.refl (l : List (Nat × Session)) (t : Token) : SrchFrom l l t := .of fun _ x h => ⟨x, h, rfl⟩

theorem changeState_search (x : Session) (u : Option User) : (x.changeState u).2.search = x.search := by
  obtain ⟨sl, st, fl, se, op, lo⟩ := x
  cases st <;> cases u <;> try (rename_i u; cases u)
  all_goals rfl

theorem inval_search {l : List (Nat × Session)} {h : Nat} {x' : Session}
    (hx : AMap.get (Slot.invalidate l) h = some x') : ∃ x, AMap.get l h = some x ∧ x'.search = x.search := by
  rw [get_invalidate] at hx
  cases hl : AMap.get l h with
  | none => rw [hl] at hx; cases hx
  | some x =>
    rw [hl] at hx; injection hx with hx; subst hx
    exact ⟨x, rfl, changeState_search x none⟩

theorem loop_search {u : Option User} {l l' : List (Nat × Session)} {r : Option Rv}
    (hc : Slot.changeLoop u l = (r, l')) {h : Nat} {x' : Session}
    (hx : AMap.get l' h = some x') : ∃ x, AMap.get l h = some x ∧ x'.search = x.search := by
  rcases get_changeLoop hc h with e | e
  · rw [e] at hx; exact ⟨x', hx, rfl⟩
  · rw [e] at hx
    cases hl : AMap.get l h with
    | none => rw [hl] at hx; cases hx
    | some x =>
      rw [hl] at hx; injection hx with hx; subst hx
      exact ⟨x, rfl, changeState_search x u⟩

theorem mod_search {l : List (Nat × Session)} {h k : Nat} {f : Session → Session} {x' : Session}
    (hf : ∀ x, (f x).search = x.search)
    (hx : AMap.get (AMap.modify l h f) k = some x') : ∃ x, AMap.get l k = some x ∧ x'.search = x.search := by
  rw [AMap.get_modify] at hx
  split at hx
  · cases hl : AMap.get l k with
    | none => rw [hl] at hx; cases hx
    | some x =>
      rw [hl] at hx; injection hx with hx; subst hx
      exact ⟨x, rfl, hf x⟩
  · exact ⟨x', hx, rfl⟩

/-- A session replaced by one whose search is justified. -/
theorem SrchFrom.mod {l : List (Nat × Session)} {h : Nat} {x y : Session} {t : Token}
    (hx : AMap.get l h = some x)
    (hy : ∀ r, y.search = some r → (∃ r0, x.search = some r0 ∧ ∀ n ∈ r, n ∈ r0) ∨ ∀ n ∈ r, ∃ u, t.handles.get n = some u) :
    SrchFrom l (AMap.modify l h fun _ => y) t := by
  intro k x' r hk hr
  rw [AMap.get_modify] at hk
  by_cases e : h = k
  · subst e
    rw [if_pos rfl, hx] at hk; injection hk with hk; subst hk
    rcases hy r hr with ⟨r0, h1, h2⟩ | h1
    · exact .inl ⟨x, r0, hx, h1, h2⟩
    · exact .inr h1
  · rw [if_neg e] at hk
    exact .inl ⟨x', r, hk, hr, fun _ h => h⟩

theorem hok_acts {k : Nat} {D : Nat → Prop} {N : Obj → Prop} {a b : Token} (x : TActs C Z k D N a b) (h : HOk a) : HOk b :=
  (go_acts x h).1

theorem sessStep_srch {e : Env} {h : Nat} {c : SCall} {x : Session} {t : Token} (ok : HOk t) :
    ∀ r, (sessStep C O e h c x t).2.1.search = some r →
      (∃ r0, x.search = some r0 ∧ ∀ n ∈ r, n ∈ r0) ∨
        ∀ n ∈ r, ∃ u, (sessStep C O e h c x t).2.2.handles.get n = some u := by
  intro r hr
  have hok2 : HOk (sessStep C O e h c x t).2.2 :=
    hok_acts (D := fun _ => True) (N := fun _ => True) (acts_sessStep (O := O) (h := h) e c x t (fun _ _ => trivial) (Z := .all) (fun _ => trivial) (fun _ => trivial)
      (fun _ _ _ _ _ _ _ _ _ => trivial)) ok
  cases c
  case findInit tm =>
    by_cases hin : t.isInitialized
    · simp only [sessStep, hin, Bool.not_true, Bool.false_eq_true, if_false] at hr hok2 ⊢
      unfold Session.newSearch at hr hok2 ⊢
      cases hs : x.search with
      | some l =>
        simp only [hs] at hr
        exact .inl ⟨r, hs ▸ hr, fun _ h => h⟩
      | none =>
        simp only [hs] at hr hok2 ⊢
        have v := searchObjects_valid (e := e) (tm := tm) (l := r) ok
        generalize t.searchObjects e tm = p at hr hok2 v ⊢
        obtain ⟨q, t1⟩ := p
        cases q with
        | error q => simp only at hr; rw [hs] at hr; cases hr
        | ok q =>
          simp only at hr
          injection hr with hr; subst hr
          right
          exact v rfl
    · simp only [sessStep, hin, Bool.not_false, if_true] at hr
      exact .inl ⟨r, hr, fun _ h => h⟩
  case find m =>
    left
    simp only [sessStep, Session.findObjects] at hr
    cases hl : x.checkLogin with
    | error q => simp only [hl] at hr; exact ⟨r, hr, fun _ h => h⟩
    | ok _ =>
      cases hs : x.search with
      | none => simp only [hl, hs] at hr; cases hr
      | some l =>
        simp only [hl, hs] at hr
        injection hr with hr; subst hr
        exact ⟨l, rfl, fun n hn => List.mem_of_mem_drop hn⟩
  case findFinal => simp only [sessStep] at hr; cases hr
  all_goals
    left
    simp only [sessStep] at hr
    repeat' split at hr
    all_goals exact ⟨r, hr, fun _ h => h⟩

/-- What a step does to the searches of a slot. -/
theorem step_srch {e : Env} {s : St} {i : Nat} {c : Call} {sl sl' : Slot} (hi : Inv s)
    (hs : AMap.get s.slots i = some sl) (ok : HOk sl.token)
    (h1 : c ≠ .finalize) (h2 : c ≠ .crash)
    (hs' : AMap.get (step M C O e s c).2.slots i = some sl') : SrchFrom sl.sessions sl'.sessions sl'.token := by
  have same : ∀ {t : St}, AMap.get t.slots i = some sl → AMap.get t.slots i = some sl' →
      SrchFrom sl.sessions sl'.sessions sl'.token := by
    intro t a b
    rw [a] at b; injection b with b; subst b; exact .refl _ _
  have put : ∀ {t : St} {j : Nat} {slj : Slot} (_ : AMap.get t.slots i = some sl)
      (_ : j = i → SrchFrom sl.sessions slj.sessions slj.token),
      AMap.get (t.setSlot j slj).slots i = some sl' → SrchFrom sl.sessions sl'.sessions sl'.token := by
    intro t j slj ht hj h
    by_cases ij : j = i
    · subst ij
      rw [get_setSlot ht, if_pos rfl] at h
      injection h with h; subst h; exact hj rfl
    · rw [get_setSlot_ne ij] at h; exact same ht h
  have at' : ∀ {j : Nat} {slj : Slot}, AMap.get s.slots j = some slj → j = i → slj = sl := by
    intro j slj hj e
    subst e; rw [hs] at hj; injection hj with hj; exact hj.symm
  have nosess : ∀ t : Token, SrchFrom sl.sessions [] t := fun t h x r hx => by cases hx
  cases c with
  | «initialize» conf =>
    have hs' : AMap.get (fnInitialize C e s conf).2.slots i = some sl' := hs'
    unfold fnInitialize at hs'
    by_cases h : s.ready = true
    · rw [if_pos h] at hs'
      exact same (initSlots_keep hs) hs'
    · have := (hi.off (by simpa [St.ready] using h)).1
      rw [this] at hs; cases hs
  | finalize => exact absurd rfl h1
  | crash => exact absurd rfl h2
  | openSession j f =>
    simp only [step, fnOpen] at hs'
    split at hs'
    · exact same hs hs'
    · rename_i slj hg
      obtain ⟨hr, hj⟩ := getSlot_ok hg
      split at hs'
      · exact same hs hs'
      · split at hs'
        · exact same hs hs'
        · split at hs'
          · exact same hs hs'
          · rename_i x hx
            refine put (t := s) (j := j) (slj := { slj with sessions := AMap.insert slj.sessions s.next x }) hs ?_ hs'
            intro e
            have := at' hj e; subst this
            intro h x' r hx' hr'
            simp only [AMap.get_insert] at hx'
            split at hx'
            · injection hx' with hx'; subst hx'
              obtain ⟨_, _, _, _, _, _, n7, _⟩ := new_session hx
              rw [n7] at hr'; cases hr'
            · exact .inl ⟨x', r, hx', hr', fun _ h => h⟩
  | closeSession h =>
    simp only [step, fnClose] at hs'
    split at hs'
    · exact same hs hs'
    · rename_i j slj hg
      obtain ⟨hr, hm, hj⟩ := getSessionSlot_ok hg
      split at hs'
      · exact same hs hs'
      · refine put (t := s) (j := j) hs ?_ hs'
        intro e
        have := at' hj e; subst this
        refine .of ?_
        intro k x hx
        simp only [AMap.get_erase] at hx
        split at hx
        · cases hx
        · exact ⟨x, hx, rfl⟩
  | closeAll j =>
    simp only [step, fnCloseAll] at hs'
    split at hs'
    · exact same hs hs'
    · have hs2 : AMap.get ({ s with smap := AMap.retain s.smap fun _ v => v ≠ j } : St).slots i = some sl := hs
      split at hs'
      · exact same hs2 hs'
      · split at hs'
        · exact put hs2 (fun _ => nosess _) hs'
        · exact put hs2 (fun _ => nosess _) hs'
  | login h ut pin =>
    simp only [step, fnLogin] at hs'
    split at hs'
    · exact same hs hs'
    · rename_i j slj x hg
      obtain ⟨hr, hm, hj, hx⟩ := getSession_ok hg
      repeat' split at hs'
      all_goals first
        | exact same hs hs'
        | skip
      · refine put hs ?_ hs'
        intro e; have := at' hj e; subst this
        exact .of fun k y hy => mod_search (h := h) (f := fun x => { x with login := .loginOk }) (fun _ => rfl) hy
      · refine put hs ?_ hs'
        intro e; have := at' hj e; subst this
        exact .of fun k y hy => inval_search hy
      · refine put hs ?_ hs'
        intro e; have := at' hj e; subst this
        exact .refl _ _
      · refine put hs ?_ hs'
        intro e; have := at' hj e; subst this
        exact .refl _ _
      · refine put hs ?_ hs'
        intro e; have := at' hj e; subst this
        exact .of fun k y hy => loop_search rfl hy
      · refine put hs ?_ hs'
        intro e; have := at' hj e; subst this
        refine .of fun k y hy => ?_
        obtain ⟨y1, h1, h2⟩ := inval_search hy
        obtain ⟨y2, h3, h4⟩ := loop_search rfl h1
        exact ⟨y2, h3, h2.trans h4⟩
  | logout h =>
    simp only [step, fnLogout] at hs'
    split at hs'
    · exact same hs hs'
    · rename_i j slj x hg
      obtain ⟨hr, hm, hj, hx⟩ := getSession_ok hg
      repeat' split at hs'
      · exact same hs hs'
      · refine put hs ?_ hs'
        intro e; have := at' hj e; subst this
        exact .of fun k y hy => inval_search hy
      · refine put hs ?_ hs'
        intro e; have := at' hj e; subst this
        exact .refl _ _
  | initToken j pin l =>
    simp only [step, fnInitToken] at hs'
    split at hs'
    · exact same hs hs'
    · rename_i slj hg
      obtain ⟨hr, hj⟩ := getSlot_ok hg
      split at hs'
      · exact same hs hs'
      · rename_i hn
        repeat' split at hs'
        all_goals
          refine put hs ?_ hs'
          intro e; have := at' hj e; subst this
          exact .refl _ _
  | getTokenInfo j =>
    simp only [step] at hs'
    repeat' split at hs'
    all_goals exact same hs hs'
  | sess h c =>
    simp only [step] at hs'
    split at hs'
    · exact same hs hs'
    · rename_i j slj x hg
      obtain ⟨hr, hm, hj, hx⟩ := getSession_ok hg
      refine put hs ?_ hs'
      intro e; have := at' hj e; subst this
      exact .mod hx (sessStep_srch ok)
  | op h c =>
    simp only [step] at hs'
    split at hs'
    · exact same hs hs'
    · rename_i j slj x hg
      obtain ⟨hr, hm, hj, hx⟩ := getSession_ok hg
      refine put hs ?_ hs'
      intro ee; have := at' hj ee; subst this
      refine .mod hx fun r hr => ?_
      rcases opStep_sr M (C := C) e h c x slj.token with e1 | e1
      · rw [e1] at hr; exact .inl ⟨r, hr, fun _ h => h⟩
      · rw [e1] at hr; cases hr

/-- C_CloseSession and C_CloseAllSessions leave no object of the closed sessions. -/
theorem owner_close {e : Env} {s : St} {i h : Nat} {sl sl' : Slot} {x : Session} (hi : Inv s)
    (hs : AMap.get s.slots i = some sl) (hv : HInv1 sl) (hx : AMap.get sl.sessions h = some x)
    (hs' : AMap.get (fnClose e s h).2.slots i = some sl') :
    ∀ n o, AMap.get sl'.token.sess n = some o → o.session = 0 ∨ ∃ x, AMap.get sl'.sessions o.session = some x := by
  have hm := (hi.link h i).2 ⟨sl, x, hs, hx⟩
  unfold fnClose at hs'
  split at hs'
  · rw [hs] at hs'; injection hs' with hs'; subst hs'; exact hv.owner
  · rename_i j slj hg
    obtain ⟨hr, hm', hj⟩ := getSessionSlot_ok hg
    rw [hm] at hm'; injection hm' with hm'; subst hm'
    rw [hs] at hj; injection hj with hj; subst hj
    split at hs'
    · rw [hs] at hs'; injection hs' with hs'; subst hs'; exact hv.owner
    · have hs' := (get_setSlot hs).symm.trans hs'
      rw [if_pos rfl] at hs'
      injection hs' with hs'; subst hs'
      simp only
      intro n o ho
      have ho : AMap.get (sl.token.dropSessionObjects h).sess n = some o := by
        split at ho
        · exact logout_sub e _ n o ho
        · exact ho
      have n1 := drop_none hv.ok ho
      rcases hv.owner n o (drop_sub h _ n o ho) with h1 | ⟨y, h1⟩
      · exact .inl h1
      · right
        refine ⟨y, ?_⟩
        rw [AMap.get_erase, if_neg (Ne.symm n1)]
        exact h1

theorem owner_closeAll {e : Env} {s : St} {i : Nat} {sl sl' : Slot} (hi : Inv s)
    (hs : AMap.get s.slots i = some sl) (hv : HInv1 sl)
    (hs' : AMap.get (fnCloseAll e s i).2.slots i = some sl') :
    ∀ n o, AMap.get sl'.token.sess n = some o → o.session = 0 ∨ ∃ x, AMap.get sl'.sessions o.session = some x := by
  unfold fnCloseAll at hs'
  split at hs'
  · rw [hs] at hs'; injection hs' with hs'; subst hs'; exact hv.owner
  · simp only at hs'
    have hs2 : AMap.get ({ s with smap := AMap.retain s.smap fun _ v => v ≠ i } : St).slots i = some sl := hs
    split at hs'
    · rw [hs2] at hs'; injection hs' with hs'; subst hs'; exact hv.owner
    · rename_i slj hg
      obtain ⟨hr, hj⟩ := getSlot_ok hg
      rw [hs2] at hj; injection hj with hj; subst hj
      split at hs'
      · rename_i hin
        rw [get_setSlot hs2, if_pos rfl] at hs'
        injection hs' with hs'; subst hs'
        have hn : sl.sessions = [] := by
          cases hc : sl.sessions with
          | nil => rfl
          | cons a l =>
            have := (hi.slot i sl hs).inited (by rw [hc]; simp)
            rw [this] at hin; cases hin
        have := hv.owner
        rw [hn] at this
        exact this
      · rw [get_setSlot hs2, if_pos rfl] at hs'
        injection hs' with hs'; subst hs'
        simp only
        intro n o ho
        have ho := logout_sub e _ n o ho
        have n1 := dropAll_none _ hv.ok ho
        rcases hv.owner n o (dropAll_sub _ _ n o ho) with h1 | ⟨y, h1⟩
        · exact .inl h1
        · exact absurd (AMap.mem_keys.2 ⟨y, h1⟩) n1

theorem hinv_step (M : Mechs) (O : Oracle) (e : Env) (s : St) (c : Call) (hi : Inv s) (hv : HInv s) :
    HInv (step M C O e s c).2 := by
  intro i sl' hs'
  have hi' := inv_step (C := C) M O e s c hi
  cases hs : AMap.get s.slots i with
  | none =>
    obtain ⟨e', cfg, conf, _, _, h1, h2⟩ := step_new hs hs'
    have := hinv_nosess (new_plain h2)
    obtain ⟨t, ss⟩ := sl'
    simp only at h1; subst h1
    exact this
  | some sl =>
    have v := hv i sl hs
    have h1 : c ≠ .finalize := by
      intro h; subst h
      simp only [step, fnFinalize] at hs'
      split at hs'
      · rename_i hr
        have := (hi.off (by simpa [St.ready] using hr)).1
        rw [this] at hs; cases hs
      · cases hs'
    have h2 : c ≠ .crash := by intro h; subst h; cases hs'
    by_cases hc : calm i c = true
    · obtain ⟨sl1, g1, g2⟩ := step_go (M := M) (C := C) (O := O) (e := e) hi hs hc
      rw [hs'] at g1; injection g1 with g1; subst g1
      obtain ⟨ok', st⟩ := g2 v.ok
      refine ⟨ok', ?_, ?_⟩
      · by_cases ha : c = .closeAll i
        · subst ha; exact owner_closeAll hi hs v hs'
        · by_cases hb : ∃ h x, c = .closeSession h ∧ AMap.get sl.sessions h = some x
          · obtain ⟨h, x, rfl, hx⟩ := hb
            exact owner_close hi hs v hx hs'
          · refine owner_calm hi hs v hc ?_ ha hs'
            intro h e
            cases hx : AMap.get sl.sessions h with
            | none => rfl
            | some x => exact absurd ⟨h, x, e, hx⟩ hb
      · intro h x l hx hl n hn
        rcases step_srch hi hs v.ok h1 h2 hs' h x l hx hl with ⟨x0, r0, a1, a2, a3⟩ | a1
        · exact Nat.lt_of_lt_of_le (v.srch h x0 r0 a1 a2 n (a3 n hn)) st.hs.next
        · obtain ⟨u, hu⟩ := a1 n hn
          exact (ok'.hs.low n u hu).2
    · have : ∃ pin l, c = .initToken i pin l := by
        cases c <;> simp_all [calm]
      obtain ⟨pin, l, rfl⟩ := this
      have hs' : AMap.get (fnInitToken C e s i pin l).2.slots i = some sl' := hs'
      unfold fnInitToken at hs'
      split at hs'
      · rw [hs] at hs'; injection hs' with hs'; subst hs'; exact v
      · rename_i slj hg
        obtain ⟨hr, hj⟩ := getSlot_ok hg
        rw [hs] at hj; injection hj with hj; subst hj
        split at hs'
        · rw [hs] at hs'; injection hs' with hs'; subst hs'; exact v
        · rename_i hn
          have hn : sl.sessions = [] := by simpa using hn
          have key : ∀ lab, HInv1 ⟨(sl.token.initToken C e pin lab).2, sl.sessions⟩ := by
            intro lab
            rw [hn]
            rcases initToken_plain (C := C) e sl.token pin lab with ⟨k1, k2⟩ | k
            · apply hinv_nosess
              have p0 : Plain sl.token := ⟨v.ok, fun n o ho => by
                rcases v.owner n o ho with h | ⟨x, h⟩
                · exact h
                · rw [hn] at h; cases h⟩
              exact p0.congr k1 k2
            · exact hinv_nosess k
          extract_lets lab at hs'
          have key := key lab
          generalize sl.token.initToken C e pin lab = p at hs' key
          obtain ⟨r, t⟩ := p
          simp only at hs' key
          repeat' split at hs'
          all_goals
            rw [get_setSlot hs, if_pos rfl] at hs'
            injection hs' with hs'; subst hs'
            exact key

theorem hinv_run (M : Mechs) (O : Oracle) (tr : Trace) (s : St) (hi : Inv s) (hv : HInv s) :
    HInv (run M C O s tr) := by
  induction tr generalizing s with
  | nil => exact hv
  | cons p tr ih =>
    obtain ⟨e, c⟩ := p
    exact ih _ (inv_step M O e s c hi) (hinv_step M O e s c hi hv)

theorem hinv_init (d : List (Nat × Db)) : HInv (St.init d) := by
  intro i sl h; cases h

theorem hinv_reach (M : Mechs) (O : Oracle) (d : List (Nat × Db)) (tr : Trace) :
    HInv (run M C O (St.init d) tr) := hinv_run M O tr _ (inv_empty d 0) (hinv_init d)

/-! ### Runs without re-initialisation -/

/-- A slot through a calm history: nothing is reused, and what ends is ended by a call that ends it. -/
theorem run_go {M : Mechs} {O : Oracle} (tr : Trace) {s : St} {i : Nat} {sl : Slot} (hi : Inv s) (hv : HInv s)
    (hs : AMap.get s.slots i = some sl) (hc : ∀ p ∈ tr, calm i p.2 = true) :
    ∃ sl', AMap.get (run M C O s tr).slots i = some sl' ∧
      HsStep (fun _ => True) sl.token.handles sl'.token.handles ∧
      (∀ n o, n < sl.token.handles.next → AMap.get sl'.token.sess n = some o →
        ∃ o', AMap.get sl.token.sess n = some o' ∧ o'.session = o.session) := by
  induction tr generalizing s sl with
  | nil => exact ⟨sl, hs, .refl _, fun n o _ h => ⟨o, h, rfl⟩⟩
  | cons p tr ih =>
    obtain ⟨e, c⟩ := p
    obtain ⟨sl1, g1, g2⟩ := step_go (M := M) (C := C) (O := O) (e := e) hi hs (hc _ (List.mem_cons_self ..))
    obtain ⟨ok', st⟩ := g2 (hv i sl hs).ok
    obtain ⟨sl2, r1, r2, r3⟩ := ih (inv_step M O e s c hi) (hinv_step M O e s c hi hv) g1
      (fun p hp => hc p (List.mem_cons_of_mem _ hp))
    refine ⟨sl2, r1, (st.hs.mono fun _ _ => trivial).trans r2, ?_⟩
    intro n o hn ho
    obtain ⟨o1, h1, e1⟩ := r3 n o (Nat.lt_of_lt_of_le hn st.hs.next) ho
    obtain ⟨o2, h2, e2⟩ := st.oldS n o1 hn h1
    exact ⟨o2, h2, e2.trans e1⟩

end

end Kry
