import Verif.Proofs.Given
import Verif.Proofs.Fetch

/-! # The end of an object handle, and what happens until then -/

namespace Kry
open Spec

section
variable {C : Crypto} {M : Mechs} {O : Oracle}

/-- A handle that has been given out and denotes nothing any more. -/
def Dead (s : St) (i n : Nat) : Prop :=
  ∃ sl, AMap.get s.slots i = some sl ∧ n < sl.token.handles.next ∧ sl.token.handles.get n = none

theorem dead_step {e : Env} {s : St} {c : Call} {i n : Nat} (hi : Inv s) (hv : HInv s)
    (hc : calm i c = true) (hd : Dead s i n) : Dead (step M C O e s c).2 i n := by
  obtain ⟨sl, hs, hn, hg⟩ := hd
  obtain ⟨sl', hs', go⟩ := step_go (M := M) (C := C) (O := O) (e := e) hi hs hc
  obtain ⟨_, st⟩ := go (hv i sl hs).ok
  refine ⟨sl', hs', Nat.lt_of_lt_of_le hn st.hs.next, ?_⟩
  cases h : sl'.token.handles.get n with
  | none => rfl
  | some u => rw [st.hs.old n u hn h] at hg; cases hg

theorem dead_run (tr : Trace) {s : St} {i n : Nat} (hi : Inv s) (hv : HInv s)
    (hc : ∀ p ∈ tr, calm i p.2 = true) (hd : Dead s i n) : Dead (run M C O s tr) i n := by
  induction tr generalizing s with
  | nil => exact hd
  | cons p tr ih =>
    exact ih (inv_step M O p.1 s p.2 hi) (hinv_step M O p.1 s p.2 hi hv)
      (fun q hq => hc q (List.mem_cons_of_mem _ hq))
      (dead_step hi hv (hc p (List.mem_cons_self ..)) hd)

/-- Putting back what was there. -/
theorem setSlot_same {s : St} {i h : Nat} {sl : Slot} {x : Session} (hi : Inv s)
    (hs : AMap.get s.slots i = some sl) (hx : AMap.get sl.sessions h = some x) :
    s.setSlot i ⟨sl.token, AMap.modify sl.sessions h fun _ => x⟩ = s := by
  have hnd := (hi.slot i sl hs).nd
  rw [AMap.modify_self hnd hx]
  unfold St.setSlot
  have : AMap.modify s.slots i (fun _ => (⟨sl.token, sl.sessions⟩ : Slot)) = s.slots :=
    AMap.modify_self hi.slotsND hs
  rw [this]

/-- What the token does when its object lookup fails for a handle. -/
structure NoObj (C : Crypto) (t : Token) (n : Nat) : Prop where
  byHandle : ∀ e, ∃ r, t.getObjectByHandle C e n = .error r
  copy : ∀ e k tm, ∃ r, t.copyObject C e k n tm = (.error r, t)
  size : ∀ e, ∃ r, t.getObjectSize C e n = .error r
  attrs : ∀ e tm, ∃ r, t.getObjectAttrs C e n tm = (.error r, tm)

theorem noObj_dead {t : Token} {n : Nat} (ok : HOk t) (hg : t.handles.get n = none) : NoObj C t n := by
  have hs : AMap.get t.sess n = none := by
    cases h : AMap.get t.sess n with
    | none => rfl
    | some o =>
      obtain ⟨_, u, hu, _⟩ := ok.sess n o h
      rw [hg] at hu; cases hu
  refine ⟨fun e => ⟨.objectHandleInvalid, ?_⟩, fun e k tm => ⟨.objectHandleInvalid, ?_⟩,
    fun e => ⟨.objectHandleInvalid, ?_⟩, fun e tm => ⟨.objectHandleInvalid, ?_⟩⟩
  · simp only [Token.getObjectByHandle, hs, Store.fetch, hg]
  · simp only [Token.copyObject, hs, Store.fetch, hg]
  · simp only [Token.getObjectSize, hs, Store.fetch, hg]
  · simp only [Token.getObjectAttrs, hs, Store.fetch, hg]

theorem sess_refused {e : Env} {h n : Nat} {c : SCall} {x : Session} {t : Token} (no : NoObj C t n)
    (hn : n ∈ names (.sess h c)) :
    refusal (sessStep C O e h c x t).1 = true ∧ (sessStep C O e h c x t).2 = (x, t) := by
  have hby : ∀ e', ∃ r, t.getObjectByHandle C e' n = .error r := no.byHandle
  cases c <;> simp only [names, List.mem_singleton, List.not_mem_nil] at hn <;> subst hn <;>
    simp only [sessStep]
  case copyObject tm =>
    have : ∃ r, fnCopy C e h x t n tm = (.error r, t) := by
      unfold fnCopy
      split
      · exact ⟨_, rfl⟩
      · split
        · exact ⟨_, rfl⟩
        · exact no.copy _ _ _
    obtain ⟨r, hr⟩ := this
    rw [hr]; exact ⟨rfl, rfl⟩
  case destroyObject =>
    have : ∃ r, fnDestroy C e x t n = (.error r, t) := by
      unfold fnDestroy
      split
      · exact ⟨_, rfl⟩
      · obtain ⟨r, hr⟩ := hby (e.sub 0)
        rw [hr]; exact ⟨_, rfl⟩
    obtain ⟨r, hr⟩ := this
    rw [hr]; exact ⟨rfl, rfl⟩
  case getObjectSize =>
    split
    · exact ⟨rfl, rfl⟩
    · obtain ⟨r, hr⟩ := no.size e
      rw [hr]; exact ⟨rfl, rfl⟩
  case getAttr q =>
    split
    · exact ⟨rfl, rfl⟩
    · obtain ⟨r, hr⟩ := no.attrs e q
      rw [hr]; exact ⟨rfl, rfl⟩
  case setAttr tm =>
    have : ∃ r, fnSetAttr C e x t n tm = (.error r, t) := by
      unfold fnSetAttr
      split
      · exact ⟨_, rfl⟩
      · obtain ⟨r, hr⟩ := hby (e.sub 0)
        rw [hr]; exact ⟨_, rfl⟩
    obtain ⟨r, hr⟩ := this
    rw [hr]; exact ⟨rfl, rfl⟩

theorem op_refused {e : Env} {h n : Nat} {c : OCall} {x : Session} {t : Token}
    (hby : ∀ e, ∃ r, t.getObjectByHandle C e n = .error r)
    (hn : n ∈ names (.op h c)) :
    refusal (opStep M C e h c x t).1 = true ∧ (opStep M C e h c x t).2 = (x, t) := by
  cases c <;> try (simp only [names, List.not_mem_nil] at hn; done)
  case opInit k mech key sig =>
    cases mech with
    | none => simp only [names, List.not_mem_nil] at hn
    | some m =>
      obtain ⟨m, p⟩ := m
      simp only [names] at hn
      split at hn
      · cases hn
      · rename_i hk
        rw [List.mem_singleton] at hn; subst hn
        simp only [opStep, if_neg hk]
        have : ∃ r, fnInitKey M C e k m p n sig x t = (.error r, x) := by
          unfold fnInitKey
          split
          · exact ⟨_, rfl⟩
          · split
            · exact ⟨_, rfl⟩
            · obtain ⟨r, hr⟩ := hby (e.sub 0)
              rw [hr]; exact ⟨_, rfl⟩
        obtain ⟨r, hr⟩ := this
        rw [hr]; exact ⟨rfl, rfl⟩
  case digestKey key =>
    simp only [names, List.mem_singleton] at hn; subst hn
    simp only [opStep]
    have : ∃ r, fnDigestKey M C e n x t = (.error r, x) := by
      unfold fnDigestKey
      split
      · exact ⟨_, rfl⟩
      · split
        · exact ⟨_, rfl⟩
        · obtain ⟨r, hr⟩ := hby (e.sub 0)
          rw [hr]; exact ⟨_, rfl⟩
    obtain ⟨r, hr⟩ := this
    rw [hr]; exact ⟨rfl, rfl⟩
  case wrap m p w k out =>
    simp only [opStep]
    have : ∃ r, fnWrap M C e m p w k out t = .err r := by
      unfold fnWrap
      split
      · exact ⟨_, rfl⟩
      · simp only [names, List.mem_cons, List.not_mem_nil, or_false] at hn
        split
        · exact ⟨_, rfl⟩
        · rename_i o ho
          rcases hn with hn | hn
          · subst hn
            obtain ⟨r, hr⟩ := hby (e.sub 1)
            rw [hr]; exact ⟨_, rfl⟩
          · subst hn
            obtain ⟨r, hr⟩ := hby (e.sub 0)
            rw [hr] at ho; cases ho
    obtain ⟨r, hr⟩ := this
    rw [hr]; exact ⟨rfl, trivial⟩
  case unwrap m p key data tm =>
    simp only [names, List.mem_singleton] at hn; subst hn
    simp only [opStep]
    have : ∃ r, fnUnwrap M C e h m p n data tm x t = (.error r, t) := by
      unfold fnUnwrap
      split
      · exact ⟨_, rfl⟩
      · split
        · exact ⟨_, rfl⟩
        · obtain ⟨r, hr⟩ := hby (e.sub 0)
          rw [hr]; exact ⟨_, rfl⟩
    obtain ⟨r, hr⟩ := this
    rw [hr]; exact ⟨rfl, rfl⟩
  case derive m p key tm =>
    simp only [names, List.mem_singleton] at hn; subst hn
    simp only [opStep]
    have : ∃ r, fnDerive M C e h m p n tm x t = (.error r, t) := by
      unfold fnDerive
      split
      · exact ⟨_, rfl⟩
      · split
        · exact ⟨_, rfl⟩
        · obtain ⟨r, hr⟩ := hby (e.sub 0)
          rw [hr]; exact ⟨_, rfl⟩
    obtain ⟨r, hr⟩ := this
    rw [hr]; exact ⟨rfl, rfl⟩
  case encapsulate m key tm out =>
    simp only [names, List.mem_singleton] at hn; subst hn
    simp only [opStep]
    have : ∃ r, fnEncap M C e h m n tm out x t = (.err r, t) := by
      unfold fnEncap
      split
      · exact ⟨_, rfl⟩
      · split
        · exact ⟨_, rfl⟩
        · obtain ⟨r, hr⟩ := hby (e.sub 0)
          rw [hr]; exact ⟨_, rfl⟩
    obtain ⟨r, hr⟩ := this
    rw [hr]; exact ⟨rfl, rfl⟩
  case decapsulate m key data tm =>
    simp only [names, List.mem_singleton] at hn; subst hn
    simp only [opStep]
    have : ∃ r, fnDecap M C e h m n data tm x t = (.error r, t) := by
      unfold fnDecap
      split
      · exact ⟨_, rfl⟩
      · split
        · exact ⟨_, rfl⟩
        · obtain ⟨r, hr⟩ := hby (e.sub 0)
          rw [hr]; exact ⟨_, rfl⟩
    obtain ⟨r, hr⟩ := this
    rw [hr]; exact ⟨rfl, rfl⟩

theorem names_caller {c : Call} {n : Nat} (hn : n ∈ names c) :
    (∃ h' c', c = .sess h' c') ∨ ∃ h' c', c = .op h' c' := by
  cases c
  case sess h c => exact .inl ⟨h, c, rfl⟩
  case op h c => exact .inr ⟨h, c, rfl⟩
  all_goals cases hn

/-- A call that names an object the token cannot look up is refused and changes nothing. -/
theorem call_refused {e : Env} {s : St} {c : Call} {i n : Nat} {sl : Slot} (hi : Inv s)
    (hs : AMap.get s.slots i = some sl) (hm : AMap.get s.smap (caller c) = some i)
    (no : NoObj C sl.token n) (hn : n ∈ names c) :
    refusal (step M C O e s c).1 = true ∧ (step M C O e s c).2 = s := by
  obtain ⟨sl1, x, hg, hs1, hx⟩ := getSession_live hi hm
  rw [hs] at hs1; injection hs1 with hs1; subst hs1
  rcases names_caller hn with ⟨h, c', rfl⟩ | ⟨h, c', rfl⟩
  · have hg : s.getSession h = .ok (i, sl, x) := hg
    have hx : AMap.get sl.sessions h = some x := hx
    obtain ⟨h1, h2⟩ := sess_refused (C := C) (O := O) (e := e) (x := x) no hn
    simp only [step, hg]
    simp only [h2]
    exact ⟨h1, setSlot_same hi hs hx⟩
  · have hg : s.getSession h = .ok (i, sl, x) := hg
    have hx : AMap.get sl.sessions h = some x := hx
    obtain ⟨h1, h2⟩ := op_refused (C := C) (M := M) (e := e) (x := x) no.byHandle hn
    simp only [step, hg]
    simp only [h2]
    exact ⟨h1, setSlot_same hi hs hx⟩

/-- Session `h` does not list `n` in a search. -/
def Unlisted (s : St) (i h n : Nat) : Prop :=
  ∀ sl x l, AMap.get s.slots i = some sl → AMap.get sl.sessions h = some x → x.search = some l → n ∉ l

theorem unlisted_step {e : Env} {s : St} {c : Call} {i h n : Nat} (hi : Inv s) (hv : HInv s)
    (hc : calm i c = true) (hd : Dead s i n) (hu : Unlisted s i h n) :
    Unlisted (step M C O e s c).2 i h n := by
  have hd' := dead_step (M := M) (C := C) (O := O) (e := e) hi hv hc hd
  obtain ⟨sl, hs, hn, hg⟩ := hd
  obtain ⟨sl1, hs1, _, hg1⟩ := hd'
  intro sl' x l hs' hx hl hm
  rw [hs1] at hs'; injection hs' with hs'; subst hs'
  have h1 : c ≠ .finalize := by intro h; subst h; cases hc
  have h2 : c ≠ .crash := by intro h; subst h; cases hc
  rcases step_srch hi hs (hv i sl hs).ok h1 h2 hs1 h x l hx hl with ⟨x0, r0, a1, a2, a3⟩ | a1
  · exact hu sl x0 r0 hs a1 a2 (a3 n hm)
  · obtain ⟨u, h⟩ := a1 n hm
    rw [hg1] at h; cases h

theorem unlisted_run (tr : Trace) {s : St} {i h n : Nat} (hi : Inv s) (hv : HInv s)
    (hc : ∀ p ∈ tr, calm i p.2 = true) (hd : Dead s i n) (hu : Unlisted s i h n) :
    Unlisted (run M C O s tr) i h n := by
  induction tr generalizing s with
  | nil => exact hu
  | cons p tr ih =>
    have hp := hc p (List.mem_cons_self ..)
    exact ih (inv_step M O p.1 s p.2 hi) (hinv_step M O p.1 s p.2 hi hv)
      (fun q hq => hc q (List.mem_cons_of_mem _ hq))
      (dead_step hi hv hp hd) (unlisted_step hi hv hp hd hu)

theorem find_unlisted {e : Env} {s : St} {i h n k : Nat} {l : List Nat} (hu : Unlisted s i h n)
    (hm : AMap.get s.smap h = some i) (ho : (step M C O e s (.sess h (.find k))).1 = .handles l) : n ∉ l := by
  simp only [step] at ho
  split at ho
  · cases ho
  · rename_i j sl x hg
    obtain ⟨_, hm', hs, hx⟩ := getSession_ok hg
    rw [hm] at hm'; injection hm' with hm'; subst hm'
    simp only [sessStep] at ho
    unfold Session.findObjects at ho
    split at ho
    · cases ho
    · rename_i l' hr
      injection ho with ho; subst ho
      split at hr
      · cases hr
      · split at hr
        · cases hr
        · rename_i r hsr
          injection hr with hr; subst hr
          exact fun hn => hu sl x r hs hx hsr (List.mem_of_mem_take hn)

/-- A new search does not list a dead handle. -/
theorem init_unlisted {e : Env} {s : St} {i h n : Nat} {tm : Template} (hi : Inv s) (hv : HInv s)
    (hd : Dead s i n) (hm : AMap.get s.smap h = some i)
    (ho : (step M C O e s (.sess h (.findInit tm))).1 = .ok) :
    Unlisted (step M C O e s (.sess h (.findInit tm))).2 i h n := by
  have hd' := dead_step (M := M) (C := C) (O := O) (e := e) (c := .sess h (.findInit tm)) hi hv rfl hd
  obtain ⟨sl, hs, hn, hg⟩ := hd
  obtain ⟨sl1, hs1, _, hg1⟩ := hd'
  intro sl' x l hs' hx hl hmem
  rw [hs1] at hs'; injection hs' with hs'; subst hs'
  rcases step_srch hi hs (hv i sl hs).ok (by simp) (by simp) hs1 h x l hx hl with ⟨x0, r0, a1, a2, a3⟩ | a1
  · obtain ⟨sl2, x2, g1, g2, g3⟩ := getSession_live hi hm
    rw [hs] at g2; injection g2 with g2; subst g2
    rw [a1] at g3; injection g3 with g3; subst g3
    simp only [step, g1, sessStep] at ho
    split at ho
    · cases ho
    · simp only [Session.newSearch, a2] at ho
      cases ho
  · obtain ⟨u, h⟩ := a1 n hmem
    rw [hg1] at h; cases h

/-- A spared handle keeps its object. -/
theorem run_spared (tr : Trace) {s : St} {i n : Nat} {sl : Slot} {u : Bytes} (hi : Inv s) (hv : HInv s)
    (hs : AMap.get s.slots i = some sl) (hc : ∀ p ∈ tr, calm i p.2 = true) (hsp : spared M C O i n s tr)
    (hg : sl.token.handles.get n = some u) :
    ∃ sl', AMap.get (run M C O s tr).slots i = some sl' ∧ sl'.token.handles.get n = some u ∧
      (∀ o, AMap.get sl.token.sess n = some o →
        ∃ o', AMap.get sl'.token.sess n = some o' ∧ o'.session = o.session) := by
  induction tr generalizing s sl with
  | nil => exact ⟨sl, hs, hg, fun o ho => ⟨o, ho, rfl⟩⟩
  | cons p tr ih =>
    obtain ⟨e, c⟩ := p
    obtain ⟨sl1, hs1, go⟩ := step_go (M := M) (C := C) (O := O) (e := e) hi hs (hc _ (List.mem_cons_self ..))
    obtain ⟨ok', st⟩ := go (hv i sl hs).ok
    have hne := hsp.1 sl hs
    obtain ⟨sl2, r1, r2, r3⟩ := ih (inv_step M O e s c hi) (hinv_step M O e s c hi hv) hs1
      (fun p hp => hc p (List.mem_cons_of_mem _ hp)) hsp.2 (st.hs.keep n u hg hne)
    refine ⟨sl2, r1, r2, ?_⟩
    intro o ho
    obtain ⟨o1, h1, e1⟩ := st.keepS n o ho hne
    obtain ⟨o2, h2, e2⟩ := r3 o1 h1
    exact ⟨o2, h2, e2.trans e1⟩

/-- After a successful C_DestroyObject the handle is dead. -/
theorem destroy_dead {e : Env} {s : St} {i h n : Nat} (hi : Inv s) (hv : HInv s)
    (hm : AMap.get s.smap h = some i) (ho : (step M C O e s (.sess h (.destroyObject n))).1 = .ok) :
    Dead (step M C O e s (.sess h (.destroyObject n))).2 i n := by
  obtain ⟨sl, x, hg, hs, hx⟩ := getSession_live hi hm
  have ok := (hv i sl hs).ok
  simp only [step, hg, sessStep] at ho ⊢
  have hr := out_ok ho
  have key : (fnDestroy C e x sl.token n).2.handles = sl.token.handles.remove n ∧
      ∃ u, sl.token.handles.get n = some u := by
    revert hr
    unfold fnDestroy
    split
    · intro h; cases h
    · split
      · intro h; cases h
      · rename_i o hobj
        split
        · intro h; cases h
        · unfold Token.destroyObject
          split
          · rename_i o' ho'
            split
            · intro h; cases h
            · intro _
              obtain ⟨_, u, hu, _⟩ := ok.sess n o' ho'
              exact ⟨rfl, u, hu⟩
          · split
            · intro h; cases h
            · rename_i o' hf
              split
              · intro h; cases h
              · intro _
                refine ⟨rfl, ?_⟩
                unfold Store.fetch at hf
                split at hf
                · cases hf
                · rename_i u hu; exact ⟨u, hu⟩
  obtain ⟨k1, u, hu⟩ := key
  refine ⟨⟨(fnDestroy C e x sl.token n).2, _⟩, by rw [get_setSlot hs, if_pos rfl], ?_, ?_⟩
  · show n < (fnDestroy C e x sl.token n).2.handles.next
    rw [k1]; exact (ok.hs.low n u hu).2
  · show (fnDestroy C e x sl.token n).2.handles.get n = none
    rw [k1, get_remove, if_pos rfl]

/-- A session object's handle is valid. -/
theorem sess_low {t : Token} (ok : HOk t) {n : Nat} {o : Obj} (ho : AMap.get t.sess n = some o) :
    n < t.handles.next := by
  obtain ⟨_, u, hu, _⟩ := ok.sess n o ho
  exact (ok.hs.low n u hu).2

theorem drop_handles {t : Token} (ok : HOk t) {h n : Nat} {o : Obj} (ho : AMap.get t.sess n = some o)
    (he : o.session = h) : (t.dropSessionObjects h).handles.get n = none := by
  unfold Token.dropSessionObjects
  simp only
  rw [get_removeAll, if_pos]
  refine List.mem_map.2 ⟨(n, o), ?_, (ok.sess n o ho).1⟩
  rw [List.mem_filter]
  exact ⟨AMap.get_mem ho, by simpa using he⟩

theorem logout_next (e : Env) (t : Token) : (t.logout e).2.handles.next = t.handles.next := by
  have key : ∀ (l : List Nat) (h : Handles), (l.foldl Handles.remove h).next = h.next := by
    intro l
    induction l with
    | nil => intro h; rfl
    | cons a l ih => intro h; rw [List.foldl_cons, ih]; rfl
  unfold Token.logout
  split
  · rfl
  · simp only
    split <;> exact key _ _

theorem drop_next (h : Nat) (t : Token) : (t.dropSessionObjects h).handles.next = t.handles.next := by
  have key : ∀ (l : List Nat) (h : Handles), (l.foldl Handles.remove h).next = h.next := by
    intro l
    induction l with
    | nil => intro h; rfl
    | cons a l ih => intro h; rw [List.foldl_cons, ih]; rfl
  exact key _ _

theorem logout_none {e : Env} {t : Token} {n : Nat} (h : t.handles.get n = none) :
    (t.logout e).2.handles.get n = none := by
  cases hc : (t.logout e).2.handles.get n with
  | none => rfl
  | some u => rw [logout_hsub e t n u hc] at h; cases h

/-- After a successful C_CloseSession the objects of that session are dead. -/
theorem close_dead {e : Env} {s : St} {i h n : Nat} {o : Obj} (hi : Inv s) (hv : HInv s)
    (hso : sessionObj s i n = some o) (he : o.session = h) (hm : AMap.get s.smap h = some i)
    (ho : (step M C O e s (.closeSession h)).1 = .ok) :
    Dead (step M C O e s (.closeSession h)).2 i n := by
  obtain ⟨sl, x, hg, hs, hx⟩ := getSession_live hi hm
  have ok := (hv i sl hs).ok
  have hobj : AMap.get sl.token.sess n = some o := by
    unfold sessionObj at hso; rw [hs] at hso; exact hso
  have ho : (fnClose e s h).1 = .ok := ho
  show Dead (fnClose e s h).2 i n
  unfold fnClose at ho ⊢
  split at ho
  · cases ho
  · rename_i j slj hgs
    obtain ⟨_, hm', hsj⟩ := getSessionSlot_ok hgs
    rw [hm] at hm'; injection hm' with hm'; subst hm'
    rw [hs] at hsj; injection hsj with hsj; subst hsj
    simp only at ho
    split at ho
    · cases ho
    · rename_i hin
      simp only [hin]
      refine ⟨_, ((get_setSlot hs).trans (if_pos rfl)), ?_, ?_⟩
      · simp only
        split
        · rw [logout_next, drop_next]; exact sess_low ok hobj
        · rw [drop_next]; exact sess_low ok hobj
      · simp only
        split
        · exact logout_none (drop_handles ok hobj he)
        · exact drop_handles ok hobj he

/-- Clearing the private objects. -/
theorem logout_priv {e : Env} {t : Token} {n : Nat} {o : Obj} (hl : t.logged ≠ none)
    (ho : AMap.get t.sess n = some o) (h0 : o.session ≠ 0) (hp : o.isPrivate = true) :
    (t.logout e).2.handles.get n = none := by
  have key : t.clearPrivate.handles.get n = none := by
    unfold Token.clearPrivate
    simp only
    rw [get_removeAll, if_pos]
    refine List.mem_map.2 ⟨(n, o), ?_, rfl⟩
    rw [List.mem_filter]
    exact ⟨AMap.get_mem ho, by simp [h0, hp]⟩
  unfold Token.logout
  split
  · rename_i h; exact absurd h hl
  · simp only
    split <;> exact key

/-- After C_Logout by a logged-in user the private session objects are dead. -/
theorem logout_dead {e : Env} {s : St} {i h n : Nat} {o : Obj} (hi : Inv s) (hv : HInv s)
    (hso : sessionObj s i n = some o) (h0 : o.session ≠ 0) (hp : o.isPrivate = true)
    (hm : AMap.get s.smap h = some i) (ho : (step M C O e s (.logout h)).1 = .ok) :
    Dead (step M C O e s (.logout h)).2 i n := by
  obtain ⟨sl, x, hg, hs, hx⟩ := getSession_live hi hm
  have ok := (hv i sl hs).ok
  have hobj : AMap.get sl.token.sess n = some o := by
    unfold sessionObj at hso; rw [hs] at hso; exact hso
  have ho : (fnLogout e s h).1 = .ok := ho
  show Dead (fnLogout e s h).2 i n
  unfold fnLogout at ho ⊢
  rw [hg] at ho ⊢
  simp only at ho ⊢
  split at ho
  · cases ho
  · rename_i hin
    rw [if_neg hin]
    split at ho
    · rename_i hr
      have hl : sl.token.logged ≠ none := by
        intro hn
        unfold Token.logout at hr
        rw [hn] at hr; cases hr
      have hr' : (sl.token.logout e) = (.ok (), (sl.token.logout e).2) := pair_eq hr
      refine ⟨⟨(sl.token.logout e).2, Slot.invalidate sl.sessions⟩, ?_, ?_, ?_⟩
      · rw [hr']
        simp only
        rw [get_setSlot hs, if_pos rfl]
      · simp only [logout_next]; exact sess_low ok hobj
      · exact logout_priv hl hobj h0 hp
    · cases ho

/-- Dropping the objects of a session keeps the others. -/
theorem drop_keep {t : Token} {h n : Nat} (ok : HOk t) : (∀ o, AMap.get t.sess n = some o → o.session ≠ h →
      AMap.get (t.dropSessionObjects h).sess n = some o ∧
      (t.dropSessionObjects h).handles.get n = t.handles.get n) ∧
    (AMap.get t.sess n = none →
      AMap.get (t.dropSessionObjects h).sess n = none ∧
      (t.dropSessionObjects h).handles.get n = t.handles.get n) := by
  have key : ∀ o, o ∈ (t.sess.filter fun p => p.2.session = h) → o.2.handle = n →
      ∃ o', AMap.get t.sess n = some o' ∧ o'.session = h := by
    intro p hp he
    rw [List.mem_filter] at hp
    have hg := AMap.get_of_mem ok.nd hp.1
    have := (ok.sess _ _ hg).1
    rw [this] at he
    rw [← he]
    exact ⟨p.2, hg, by simpa using hp.2⟩
  constructor
  · intro o ho hne
    have hno : n ∉ (t.sess.filter fun p => p.2.session = h).map fun p => p.2.handle := by
      intro hm
      obtain ⟨p, hp, he⟩ := List.mem_map.1 hm
      obtain ⟨o', h1, h2⟩ := key p hp he
      rw [ho] at h1; injection h1 with h1; subst h1
      exact hne h2
    unfold Token.dropSessionObjects
    simp only [get_eraseAll, get_removeAll, if_neg hno]
    exact ⟨ho, trivial⟩
  · intro ho
    have hno : n ∉ (t.sess.filter fun p => p.2.session = h).map fun p => p.2.handle := by
      intro hm
      obtain ⟨p, hp, he⟩ := List.mem_map.1 hm
      obtain ⟨o', h1, h2⟩ := key p hp he
      rw [ho] at h1; cases h1
    unfold Token.dropSessionObjects
    simp only [get_eraseAll, get_removeAll, if_neg hno]
    exact ⟨ho, trivial⟩

/-- Logging out keeps what is not private. -/
theorem logout_keep (e : Env) (n : Nat) : ∀ (t : Token), (AMap.keys t.sess).Nodup → (t.logout e).2.store.db = t.store.db ∧
    (∀ o, AMap.get t.sess n = some o → (o.session = 0 ∨ o.isPrivate = false) →
      AMap.get (t.logout e).2.sess n = some o ∧ (t.logout e).2.handles.get n = t.handles.get n) ∧
    (AMap.get t.sess n = none → (t.logout e).2.handles.get n = t.handles.get n) := by
  intro t nd
  have un : ∀ (s : Store) (u : User), (s.unauthUser e u).2.db = s.db := by
    intro s u
    unfold Store.unauthUser
    repeat' split
    all_goals rfl
  have clear : (∀ o, AMap.get t.sess n = some o → (o.session = 0 ∨ o.isPrivate = false) →
      AMap.get t.clearPrivate.sess n = some o ∧ t.clearPrivate.handles.get n = t.handles.get n) ∧
      (AMap.get t.sess n = none → t.clearPrivate.handles.get n = t.handles.get n) := by
    have key : n ∈ (t.sess.filter fun p => p.2.session ≠ 0 ∧ p.2.isPrivate = true).map Prod.fst →
        ∃ o, AMap.get t.sess n = some o ∧ o.session ≠ 0 ∧ o.isPrivate = true := by
      intro hm
      obtain ⟨p, hp, he⟩ := List.mem_map.1 hm
      rw [List.mem_filter] at hp
      have hg := AMap.get_of_mem nd hp.1
      rw [← he]
      exact ⟨p.2, hg, by simpa using hp.2⟩
    constructor
    · intro o ho hp
      have hno : n ∉ (t.sess.filter fun p => p.2.session ≠ 0 ∧ p.2.isPrivate = true).map Prod.fst := by
        intro hm
        obtain ⟨o', h1, h2, h3⟩ := key hm
        rw [ho] at h1; injection h1 with h1; subst h1
        rcases hp with hp | hp
        · exact h2 hp
        · rw [hp] at h3; cases h3
      unfold Token.clearPrivate
      simp only [get_eraseAll, get_removeAll, if_neg hno]
      exact ⟨ho, trivial⟩
    · intro ho
      have hno : n ∉ (t.sess.filter fun p => p.2.session ≠ 0 ∧ p.2.isPrivate = true).map Prod.fst := by
        intro hm
        obtain ⟨o', h1, _⟩ := key hm
        rw [ho] at h1; cases h1
      unfold Token.clearPrivate
      simp only [get_removeAll, if_neg hno]
  unfold Token.logout
  split
  · exact ⟨rfl, fun o ho _ => ⟨ho, rfl⟩, fun _ => rfl⟩
  · rename_i u _
    have := un t.clearPrivate.store u
    have hcs : t.clearPrivate.store = t.store := rfl
    simp only
    split
    all_goals exact ⟨this.trans (by rw [hcs]), fun o ho hp => clear.1 o ho hp, fun ho => clear.2 ho⟩

theorem drop_stays {t : Token} {h n : Nat} (hg : t.handles.get n = none) :
    (t.dropSessionObjects h).handles.get n = none := by
  unfold Token.dropSessionObjects
  rw [get_removeAll]
  split
  · rfl
  · exact hg

theorem dropAll_stays (l : List Nat) {t : Token} {n : Nat} (hg : t.handles.get n = none) :
    (l.foldl Token.dropSessionObjects t).handles.get n = none := by
  induction l generalizing t with
  | nil => exact hg
  | cons h l ih => exact ih (drop_stays hg)

theorem dropAll_next (l : List Nat) (t : Token) :
    (l.foldl Token.dropSessionObjects t).handles.next = t.handles.next := by
  induction l generalizing t with
  | nil => rfl
  | cons h l ih => rw [List.foldl_cons, ih, drop_next]

theorem dropAll_handles (l : List Nat) {t : Token} {n : Nat} {o : Obj} (ok : HOk t)
    (ho : AMap.get t.sess n = some o) (hm : o.session ∈ l) :
    (l.foldl Token.dropSessionObjects t).handles.get n = none := by
  induction l generalizing t with
  | nil => cases hm
  | cons h l ih =>
    rw [List.foldl_cons]
    by_cases he : o.session = h
    · exact dropAll_stays l (drop_handles ok ho he)
    · rcases List.mem_cons.1 hm with e | hm
      · exact absurd e he
      · exact ih (hok_drop ok) (((drop_keep ok).1 o ho he).1) hm

/-- After a successful C_CloseAllSessions every session object is dead. -/
theorem closeAll_dead {e : Env} {s : St} {i n : Nat} {o : Obj} (hv : HInv s)
    (hso : sessionObj s i n = some o) (h0 : o.session ≠ 0)
    (ho : (step M C O e s (.closeAll i)).1 = .ok) :
    Dead (step M C O e s (.closeAll i)).2 i n := by
  unfold sessionObj at hso
  cases hs : AMap.get s.slots i with
  | none => rw [hs] at hso; cases hso
  | some sl =>
    rw [hs] at hso
    have hv1 := hv i sl hs
    have ho : (fnCloseAll e s i).1 = .ok := ho
    show Dead (fnCloseAll e s i).2 i n
    unfold fnCloseAll at ho ⊢
    split at ho
    · cases ho
    · rename_i hr
      rw [if_neg hr]
      extract_lets s1 at ho ⊢
      have hs1 : AMap.get s1.slots i = some sl := hs
      split at ho
      · cases ho
      · rename_i sl1 hg
        obtain ⟨_, hg1⟩ := getSlot_ok hg
        rw [hs1] at hg1; injection hg1 with hg1; subst hg1
        split at ho
        · cases ho
        · rename_i hin
          simp only [hg]
          rw [if_neg hin]
          refine ⟨_, (get_setSlot hs1).trans (if_pos rfl), ?_, ?_⟩
          · simp only
            rw [logout_next, dropAll_next]; exact sess_low hv1.ok hso
          · refine logout_none (dropAll_handles _ hv1.ok hso ?_)
            rcases hv1.owner n o hso with h | ⟨x, hx⟩
            · exact absurd h h0
            · exact AMap.mem_keys.2 ⟨x, hx⟩

end

end Kry
