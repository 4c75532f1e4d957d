import Verif.Proofs.Frame

/-!
# Invariant of the machine

Session map and sessions agree, handles are below the counter, and per slot the relation between the
sessions and the token.
-/

namespace Kry

/-- Per slot. -/
structure SlotOk (i : Nat) (sl : Slot) : Prop where
  nd : (AMap.keys sl.sessions).Nodup
  here : ∀ h x, AMap.get sl.sessions h = some x → x.slot = i
  inited : sl.sessions ≠ [] → sl.token.isInitialized = true
  out : sl.sessions = [] → sl.token.logged = none
  rw : ∀ h x, AMap.get sl.sessions h = some x →
    x.isWritable = (x.flags &&& CKF_RW_SESSION == CKF_RW_SESSION)
  so : sl.token.logged = some .so → ∀ h x, AMap.get sl.sessions h = some x → x.isWritable = true

/-- The whole state. -/
structure Inv (s : St) : Prop where
  slotsND : (AMap.keys s.slots).Nodup
  smapND : (AMap.keys s.smap).Nodup
  slot : ∀ i sl, AMap.get s.slots i = some sl → SlotOk i sl
  link : ∀ h i, AMap.get s.smap h = some i ↔
    ∃ sl x, AMap.get s.slots i = some sl ∧ AMap.get sl.sessions h = some x
  bound : ∀ h i, AMap.get s.smap h = some i → 0 < h ∧ h < s.next
  off : s.next = 0 → s.slots = [] ∧ s.smap = []

theorem inv_empty (d : List (Nat × Db)) (n : Nat) : Inv ⟨[], [], n, d⟩ where
  slotsND := List.nodup_nil
  smapND := List.nodup_nil
  slot := by intro i sl h; cases h
  link := by intro h i; constructor
             · intro h; cases h
             · rintro ⟨_, _, h, _⟩; cases h
  bound := by intro h i h; cases h
  off := fun _ => ⟨rfl, rfl⟩

/-- Replacing a slot by one with the same session handles. -/
theorem inv_setSlot {s : St} {i : Nat} {sl sl' : Slot} (hi : Inv s) (hs : AMap.get s.slots i = some sl)
    (ok : SlotOk i sl')
    (hk : ∀ h, (∃ x, AMap.get sl'.sessions h = some x) ↔ (∃ x, AMap.get sl.sessions h = some x)) :
    Inv (s.setSlot i sl') where
  slotsND := AMap.nodup_modify i (fun _ => sl') hi.slotsND
  smapND := hi.smapND
  slot := by
    intro j sl1 h
    rw [St.setSlot, AMap.get_modify] at h
    by_cases e : i = j
    · subst e
      rw [if_pos rfl, hs] at h
      injection h with h; rw [← h]; exact ok
    · rw [if_neg e] at h; exact hi.slot j sl1 h
  link := by
    intro h j
    show AMap.get s.smap h = some j ↔ _
    rw [hi.link h j]
    rw [St.setSlot]
    simp only [AMap.get_modify]
    by_cases e : i = j
    · subst e
      simp only [if_true, hs, Option.map_some, Option.some.injEq]
      constructor
      · rintro ⟨_, x, rfl, hx⟩
        obtain ⟨y, hy⟩ := (hk h).2 ⟨x, hx⟩
        exact ⟨sl', y, rfl, hy⟩
      · rintro ⟨_, x, rfl, hx⟩
        obtain ⟨y, hy⟩ := (hk h).1 ⟨x, hx⟩
        exact ⟨sl, y, rfl, hy⟩
    · simp only [e, if_false]
  bound := hi.bound
  off := by
    intro h0
    have := hi.off h0
    rw [this.1] at hs; cases hs

theorem get_changeLoop {u : Option User} {l l' : List (Nat × Session)} {r : Option Rv}
    (hc : Slot.changeLoop u l = (r, l')) (h : Nat) :
    (AMap.get l' h = AMap.get l h) ∨
      AMap.get l' h = (AMap.get l h).map fun x => (x.changeState u).2 := by
  induction l generalizing l' r with
  | nil => injection hc with _ hc; subst hc; exact .inl rfl
  | cons p l ih =>
    obtain ⟨k, x⟩ := p
    unfold Slot.changeLoop at hc
    split at hc
    · rename_i r1 s1 hs
      injection hc with _ hc; subst hc
      by_cases e : k = h
      · right; simp [AMap.get_cons, e, hs]
      · left; simp [AMap.get_cons, e]
    · rename_i s1 hs
      generalize hq : Slot.changeLoop u l = q at hc
      obtain ⟨r2, l2⟩ := q
      injection hc with _ hc; subst hc
      by_cases e : k = h
      · right; simp [AMap.get_cons, e, hs]
      · rcases ih hq with i1 | i1
        · left; simp [AMap.get_cons, e, i1]
        · right; simp [AMap.get_cons, e, i1]

theorem get_changeLoop_ok {u : Option User} {l l' : List (Nat × Session)}
    (hc : Slot.changeLoop u l = (none, l')) (h : Nat) :
    (AMap.get l' h = (AMap.get l h).map fun x => (x.changeState u).2) ∧
      ∀ x, AMap.get l h = some x → (x.changeState u).1 = none := by
  induction l generalizing l' with
  | nil => injection hc with _ hc; subst hc; exact ⟨rfl, fun x hx => by cases hx⟩
  | cons p l ih =>
    obtain ⟨k, x⟩ := p
    unfold Slot.changeLoop at hc
    split at hc
    · cases hc
    · rename_i s1 hs
      generalize hq : Slot.changeLoop u l = q at hc
      obtain ⟨r2, l2⟩ := q
      injection hc with h1 hc; subst hc; subst h1
      have i1 := ih hq
      by_cases e : k = h
      · simp [AMap.get_cons, e, hs]
      · simp only [AMap.get_cons, e, if_false]; exact i1

theorem keys_changeLoop {u : Option User} {l l' : List (Nat × Session)} {r : Option Rv}
    (hc : Slot.changeLoop u l = (r, l')) : AMap.keys l' = AMap.keys l := by
  induction l generalizing l' r with
  | nil => injection hc with _ hc; subst hc; rfl
  | cons p l ih =>
    obtain ⟨k, x⟩ := p
    unfold Slot.changeLoop at hc
    split at hc
    · injection hc with _ hc; subst hc; rfl
    · generalize hq : Slot.changeLoop u l = q at hc
      obtain ⟨r2, l2⟩ := q
      injection hc with _ hc; subst hc
      show k :: AMap.keys l2 = k :: AMap.keys l
      rw [ih hq]

theorem get_invalidate (l : List (Nat × Session)) (h : Nat) :
    AMap.get (Slot.invalidate l) h = (AMap.get l h).map fun x => (x.changeState none).2 := by
  induction l with
  | nil => rfl
  | cons p l ih =>
    obtain ⟨k, x⟩ := p
    show AMap.get ((k, (x.changeState none).2) :: Slot.invalidate l) h = _
    rw [AMap.get_cons, AMap.get_cons, ih]
    split <;> rfl

theorem keys_invalidate (l : List (Nat × Session)) : AMap.keys (Slot.invalidate l) = AMap.keys l := by
  unfold AMap.keys Slot.invalidate
  rw [List.map_map]; rfl

theorem changeState_same (x : Session) (u : Option User) :
    (x.changeState u).2.slot = x.slot ∧ (x.changeState u).2.flags = x.flags ∧
      (x.changeState u).2.isWritable = x.isWritable := by
  obtain ⟨sl, st, fl, se, op, lo⟩ := x
  cases st <;> cases u <;> try (rename_i u; cases u)
  all_goals exact ⟨rfl, rfl, rfl⟩

/-- Sessions of one list are those of the other, up to what `SlotOk` cares about. -/
def SessSim (l l' : List (Nat × Session)) : Prop :=
  AMap.keys l' = AMap.keys l ∧
  ∀ h x', AMap.get l' h = some x' → ∃ x, AMap.get l h = some x ∧ x'.slot = x.slot ∧ x'.flags = x.flags ∧
    x'.isWritable = x.isWritable

theorem SessSim.refl (l : List (Nat × Session)) : SessSim l l :=
  ⟨rfl, fun _ x h => ⟨x, h, rfl, rfl, rfl⟩⟩

theorem SessSim.trans {a b c : List (Nat × Session)} (x : SessSim a b) (y : SessSim b c) : SessSim a c := by
  refine ⟨y.1.trans x.1, ?_⟩
  intro h z hz
  obtain ⟨v, hv, a1, a2, a3⟩ := y.2 h z hz
  obtain ⟨w, hw, b1, b2, b3⟩ := x.2 h v hv
  exact ⟨w, hw, a1.trans b1, a2.trans b2, a3.trans b3⟩

theorem sim_invalidate (l : List (Nat × Session)) : SessSim l (Slot.invalidate l) := by
  refine ⟨keys_invalidate l, ?_⟩
  intro h x' hx
  rw [get_invalidate] at hx
  cases hl : AMap.get l h with
  | none => rw [hl] at hx; cases hx
  | some x =>
    rw [hl] at hx; injection hx with hx; subst hx
    exact ⟨x, rfl, changeState_same x none⟩

theorem sim_changeLoop {u : Option User} {l l' : List (Nat × Session)} {r : Option Rv}
    (hc : Slot.changeLoop u l = (r, l')) : SessSim l l' := by
  refine ⟨keys_changeLoop hc, ?_⟩
  intro h x' hx
  rcases get_changeLoop hc h with e | e
  · rw [e] at hx; exact ⟨x', hx, rfl, rfl, rfl⟩
  · rw [e] at hx
    cases hl : AMap.get l h with
    | none => rw [hl] at hx; cases hx
    | some x =>
      rw [hl] at hx; injection hx with hx; subst hx
      exact ⟨x, rfl, changeState_same x u⟩

theorem sim_modify {l : List (Nat × Session)} {h : Nat} {x x' : Session} (hx : AMap.get l h = some x)
    (h1 : x'.slot = x.slot) (h2 : x'.flags = x.flags) (h3 : x'.isWritable = x.isWritable) :
    SessSim l (AMap.modify l h fun _ => x') := by
  refine ⟨AMap.keys_modify _ _ _, ?_⟩
  intro k y hy
  rw [AMap.get_modify] at hy
  by_cases e : h = k
  · subst e
    rw [if_pos rfl, hx] at hy; injection hy with hy; subst hy
    exact ⟨x, hx, h1, h2, h3⟩
  · rw [if_neg e] at hy; exact ⟨y, hy, rfl, rfl, rfl⟩

theorem SessSim.handles {l l' : List (Nat × Session)} (x : SessSim l l') (h : Nat) :
    (∃ x, AMap.get l' h = some x) ↔ (∃ x, AMap.get l h = some x) := by
  rw [← AMap.mem_keys, ← AMap.mem_keys, x.1]

theorem SessSim.nil {l l' : List (Nat × Session)} (x : SessSim l l') : l' = [] ↔ l = [] := by
  have := x.1
  cases l <;> cases l' <;> simp [AMap.keys] at this ⊢

/-- A slot whose sessions are similar and whose token changed harmlessly. -/
theorem slotOk_sim {i : Nat} {sl : Slot} {t : Token} {l : List (Nat × Session)} (ok : SlotOk i sl)
    (sim : SessSim sl.sessions l) (ht : t.isInitialized = sl.token.isInitialized)
    (hn : sl.sessions = [] → t.logged = none)
    (hso : t.logged = some .so → ∀ h x, AMap.get sl.sessions h = some x → x.isWritable = true) :
    SlotOk i ⟨t, l⟩ where
  nd := by show (AMap.keys l).Nodup; rw [sim.1]; exact ok.nd
  here := by
    intro h x hx
    obtain ⟨y, hy, e, _⟩ := sim.2 h x hx
    rw [e]; exact ok.here h y hy
  inited := by
    intro h
    show t.isInitialized = true
    rw [ht]; apply ok.inited
    intro e; exact h (sim.nil.2 e)
  out := fun h => hn (sim.nil.1 h)
  rw := by
    intro h x hx
    obtain ⟨y, hy, _, e, w⟩ := sim.2 h x hx
    rw [w, e]; exact ok.rw h y hy
  so := by
    intro h k x hx
    obtain ⟨y, hy, _, _, w⟩ := sim.2 k x hx
    rw [w]; exact hso h k y hy

theorem writable_of_not_ro {l : List (Nat × Session)} {t : Token}
    (h : ¬ Slot.hasRo ⟨t, l⟩ = true) {k : Nat} {x : Session} (hx : AMap.get l k = some x) :
    x.isWritable = true := by
  cases hw : x.isWritable with
  | true => rfl
  | false =>
    exfalso
    apply h
    unfold Slot.hasRo
    rw [List.any_eq_true]
    refine ⟨(k, x), AMap.get_mem hx, ?_⟩
    simp only
    unfold Session.isWritable at hw
    cases hs : x.state <;> rw [hs] at hw <;> first | cases hw; done | rfl | decide

theorem getSlot_ok {s : St} {i : Nat} {sl : Slot} (h : s.getSlot i = .ok sl) :
    s.ready = true ∧ AMap.get s.slots i = some sl := by
  unfold St.getSlot at h
  split at h
  · cases h
  · rename_i hr
    split at h
    · injection h with h; subst h
      exact ⟨by simpa using hr, by assumption⟩
    · cases h

theorem getSessionSlot_ok {s : St} {h i : Nat} {sl : Slot} (e : s.getSessionSlot h = .ok (i, sl)) :
    s.ready = true ∧ AMap.get s.smap h = some i ∧ AMap.get s.slots i = some sl := by
  unfold St.getSessionSlot at e
  repeat' split at e
  all_goals first | (cases e; done) | skip
  rename_i hr _ _ hm _ _ hs
  injection e with e; injection e with e1 e2; subst e1; subst e2
  exact ⟨by simpa using hr, hm, (getSlot_ok hs).2⟩

theorem getSession_ok {s : St} {h i : Nat} {sl : Slot} {x : Session}
    (e : s.getSession h = .ok (i, sl, x)) :
    s.ready = true ∧ AMap.get s.smap h = some i ∧ AMap.get s.slots i = some sl ∧
      AMap.get sl.sessions h = some x := by
  unfold St.getSession at e
  repeat' split at e
  all_goals first | (cases e; done) | skip
  rename_i h1 _ _ h2
  injection e with e; injection e with e1 e; injection e with e2 e3
  subst e1; subst e2; subst e3
  obtain ⟨a, b, c⟩ := getSessionSlot_ok h1
  exact ⟨a, b, c, h2⟩

theorem getSession_live {s : St} (hi : Inv s) {h i : Nat} (hm : AMap.get s.smap h = some i) :
    ∃ sl x, s.getSession h = .ok (i, sl, x) ∧ AMap.get s.slots i = some sl ∧
      AMap.get sl.sessions h = some x := by
  obtain ⟨sl, x, h1, h2⟩ := (hi.link h i).1 hm
  have hr : s.ready = true := by
    unfold St.ready
    have := hi.bound h i hm
    simp; omega
  refine ⟨sl, x, ?_, h1, h2⟩
  unfold St.getSession St.getSessionSlot St.getSlot
  simp [hr, hm, h1, h2]

theorem getSession_dead {s : St} {h : Nat} (hm : AMap.get s.smap h = none) :
    s.getSessionSlot h = .error (if s.ready then .sessionHandleInvalid else .cryptokiNotInitialized) ∧
    s.getSession h = .error (if s.ready then .sessionHandleInvalid else .cryptokiNotInitialized) := by
  unfold St.getSession St.getSessionSlot
  cases s.ready <;> simp [hm]

/-! ## Preservation -/

variable {C : Crypto}

theorem insertBuiltin_same (e : Env) (t : Token) (cls ty id : Nat) :
    Same t (t.insertBuiltin C e cls ty id).2 := by
  unfold Token.insertBuiltin
  split
  · exact .refl t
  · split
    · exact .refl t
    · rename_i o _
      have a := insertObject_same (C := C) e t 0 o
      generalize t.insertObject C e 0 o = p at a ⊢
      obtain ⟨r, t1⟩ := p
      cases r <;> exact a

theorem insertBuiltins_same (e : Env) (t : Token) (cls ty : Nat) (l : List Nat) (n : Nat) :
    Same t (t.insertBuiltins C e cls ty l n).2 := by
  induction l generalizing t n with
  | nil => exact .refl t
  | cons id l ih =>
    unfold Token.insertBuiltins
    have a := insertBuiltin_same (C := C) (e.sub n) t cls ty id
    generalize t.insertBuiltin C (e.sub n) cls ty id = p at a ⊢
    obtain ⟨r, t1⟩ := p
    cases r with
    | error r => exact a
    | ok _ => exact a.trans (ih t1 (n + 1))

theorem internalInit_same (e : Env) (t : Token) : Same t (t.internalInit C e).2 := by
  unfold Token.internalInit
  have a := insertBuiltins_same (C := C) (e.sub 0) t CKO_PROFILE CKA_PROFILE_ID Token.profiles 0
  generalize t.insertBuiltins C (e.sub 0) CKO_PROFILE CKA_PROFILE_ID Token.profiles 0 = p at a ⊢
  obtain ⟨r, t1⟩ := p
  cases r with
  | error r => exact a
  | ok _ => exact a.trans (insertBuiltins_same _ _ _ _ _ _)

theorem new_logged {e : Env} {db : Db} {cfg : TokCfg} {t : Token} (h : Token.new C e db cfg = .ok t) :
    t.logged = none := by
  unfold Token.new at h
  extract_lets src t0 tf sf t' at h
  have h0 : t0.logged = none := rfl
  clear_value t0
  have h1 : ∀ t1, t' = .ok t1 → t1.logged = none := by
    intro t1 h1
    simp only [t', tf, sf] at h1
    repeat' split at h1
    all_goals first | (cases h1; done) | (injection h1 with h1; rw [← h1]; exact h0)
  clear_value t'
  cases t' with
  | error r => cases h
  | ok t0 =>
    have a := internalInit_same (C := C) (e.sub 1) t0
    simp only at h
    generalize t0.internalInit C (e.sub 1) = p at a h
    obtain ⟨r, t1⟩ := p
    cases r with
    | error r => cases h
    | ok _ =>
      injection h with h; rw [← h]
      exact a.logged.trans (h1 t0 rfl)

theorem initToken_logged (e : Env) (t : Token) (pin label : Bytes) (hn : t.logged = none) :
    (t.initToken C e pin label).2.logged = none := by
  unfold Token.initToken
  have a : (if t.isInitialized then t.authUser C (e.sub 0) .so pin true else (.ok (), t)).2.logged = none := by
    split
    · rw [authUser_check_logged]; exact hn
    · exact hn
  generalize (if t.isInitialized then t.authUser C (e.sub 0) .so pin true else (.ok (), t)) = p at a ⊢
  obtain ⟨r, t1⟩ := p
  cases r with
  | error r => exact a
  | ok _ =>
    simp only
    generalize t1.store.reinit C (e.sub 1) = q
    obtain ⟨r, st⟩ := q
    cases r with
    | error r => rfl
    | ok info =>
      simp only
      generalize hw : Token.setPin C (e.sub 2) _ (some User.so) pin [] = w
      have b := setPin_same (C := C) (e.sub 2)
        { info := t1.info, handles := Handles.new, store := st, sess := [], logged := none, cfg := t1.cfg }
        (some User.so) pin []
      rw [hw] at b
      obtain ⟨r, t2⟩ := w
      have b : t2.logged = none := b.logged
      simp only
      split
      · exact b
      · split
        · exact b
        · split
          · exact b
          · exact (internalInit_same _ _).logged.trans b

theorem slotOk_nosess {i : Nat} {t : Token} (h : t.logged = none) : SlotOk i ⟨t, []⟩ where
  nd := List.nodup_nil
  here := by intro h x hx; cases hx
  inited := fun h => absurd rfl h
  out := fun _ => h
  rw := by intro h x hx; cases hx
  so := by intro _ h x hx; cases hx

theorem inv_addSlot {s : St} {i : Nat} {t : Token} (hi : Inv s) (hn : AMap.get s.slots i = none)
    (hr : s.next ≠ 0) (ht : t.logged = none) : Inv { s with slots := s.slots ++ [(i, ⟨t, []⟩)] } := by
  have g : ∀ j, AMap.get (s.slots ++ [(i, (⟨t, []⟩ : Slot))]) j =
      if i = j then some ⟨t, []⟩ else AMap.get s.slots j := by
    intro j
    rw [AMap.get_append]
    by_cases e : i = j
    · subst e; simp [hn, AMap.get_cons]
    · cases AMap.get s.slots j <;> simp [e, AMap.get_cons]
  refine ⟨AMap.nodup_append_single hi.slotsND hn, hi.smapND, ?_, ?_, hi.bound, fun h => absurd h hr⟩
  · intro j sl h
    simp only [g] at h
    by_cases e : i = j
    · subst e; rw [if_pos rfl] at h; injection h with h; rw [← h]; exact slotOk_nosess ht
    · rw [if_neg e] at h; exact hi.slot j sl h
  · intro h j
    simp only [g]
    show AMap.get s.smap h = some j ↔ _
    rw [hi.link h j]
    by_cases e : i = j
    · subst e
      rw [hn]
      constructor
      · rintro ⟨_, _, h, _⟩; cases h
      · rintro ⟨sl, x, h1, h2⟩
        rw [if_pos rfl] at h1; injection h1 with h1; subst h1; cases h2
    · simp only [e, if_false]

theorem inv_initSlots {e : Env} {conf : List (Nat × TokCfg)} {s : St} {b : Bool} {k : Nat} (hi : Inv s)
    (hr : s.next ≠ 0) : Inv (initSlots C e s b conf k).2 := by
  induction conf generalizing s b k with
  | nil => exact hi
  | cons p conf ih =>
    obtain ⟨i, cfg⟩ := p
    unfold initSlots
    simp only
    split
    · exact hi
    · rename_i t ht
      split
      · exact ih hi hr
      · rename_i hn
        exact ih (inv_addSlot hi hn hr (new_logged ht)) hr

theorem inv_initialize {e : Env} {s : St} {conf : List (Nat × TokCfg)} (hi : Inv s) :
    Inv (fnInitialize C e s conf).2 := by
  unfold fnInitialize
  by_cases h : s.ready = true
  · rw [if_pos h]
    exact inv_initSlots hi (by simpa [St.ready] using h)
  · rw [if_neg h]
    exact inv_initSlots (inv_empty s.disks 1) (fun h => by cases h)

theorem new_session {i fl : Nat} {u : Option User} {x : Session} (h : Session.new i u fl = .ok x) :
    x.slot = i ∧ x.flags = fl ∧ x.isWritable = (fl &&& CKF_RW_SESSION == CKF_RW_SESSION) ∧
      (u = some .so → x.isWritable = true) ∧ (u = none → x.state = .rwPublic ∨ x.state = .roPublic) ∧
      x.ops = [] ∧ x.search = none ∧ x.login = .notInit := by
  unfold Session.new at h
  simp only at h
  split at h
  · cases h
  · cases hb : (fl &&& CKF_RW_SESSION == CKF_RW_SESSION) <;> rw [hb] at h <;>
      cases u <;> try (rename_i u; cases u)
    all_goals first
      | (cases h; done)
      | (injection h with h; subst h; simp [Session.isWritable])

theorem inv_open {s : St} {i fl : Nat} (hi : Inv s) : Inv (fnOpen s i fl).2 := by
  unfold fnOpen
  split
  · exact hi
  · rename_i sl hg
    obtain ⟨hr, hs⟩ := getSlot_ok hg
    split
    · exact hi
    · rename_i hin
      split
      · exact hi
      · split
        · exact hi
        · rename_i x hx
          obtain ⟨n1, n2, n3, n4, -⟩ := new_session hx
          have ok := hi.slot i sl hs
          have nosess : ∀ j sl', AMap.get s.slots j = some sl' → AMap.get sl'.sessions s.next = none := by
            intro j sl' hj
            cases hc : AMap.get sl'.sessions s.next with
            | none => rfl
            | some y =>
              have := (hi.bound s.next j ((hi.link s.next j).2 ⟨sl', y, hj, hc⟩)).2
              omega
          have g : ∀ j, AMap.get (AMap.modify s.slots i fun _ =>
              ({ sl with sessions := AMap.insert sl.sessions s.next x } : Slot)) j
              = if i = j then some { sl with sessions := AMap.insert sl.sessions s.next x }
                else AMap.get s.slots j := by
            intro j
            rw [AMap.get_modify]
            by_cases e : i = j
            · subst e; simp [hs]
            · simp [e]
          refine ⟨AMap.nodup_modify i (fun _ => _) hi.slotsND, AMap.nodup_insert _ _ hi.smapND, ?_, ?_, ?_, ?_⟩
          · intro j sl' h
            simp only [St.setSlot, g] at h
            by_cases e : i = j
            · subst e
              rw [if_pos rfl] at h; injection h with h; subst h
              refine ⟨AMap.nodup_insert _ _ ok.nd, ?_, ?_, ?_, ?_, ?_⟩
              · intro h y hy
                rw [AMap.get_insert] at hy
                by_cases e : s.next = h
                · rw [if_pos e] at hy; injection hy with hy; rw [← hy]; exact n1
                · rw [if_neg e] at hy; exact ok.here h y hy
              · intro _; simpa using hin
              · intro h; cases h
              · intro h y hy
                rw [AMap.get_insert] at hy
                by_cases e : s.next = h
                · rw [if_pos e] at hy; injection hy with hy; rw [← hy, n3, n2]
                · rw [if_neg e] at hy; exact ok.rw h y hy
              · intro hso h y hy
                rw [AMap.get_insert] at hy
                by_cases e : s.next = h
                · rw [if_pos e] at hy; injection hy with hy; rw [← hy]; exact n4 hso
                · rw [if_neg e] at hy; exact ok.so hso h y hy
            · rw [if_neg e] at h; exact hi.slot j sl' h
          · intro h j
            simp only [St.setSlot, g]
            rw [AMap.get_insert]
            by_cases eh : s.next = h
            · subst eh
              rw [if_pos rfl]
              by_cases e : i = j
              · subst e
                simp [AMap.get_insert]
              · simp only [e, if_false, Option.some.injEq]
                constructor
                · intro h; cases h
                · rintro ⟨sl', y, h1, h2⟩
                  rw [nosess j sl' h1] at h2; cases h2
            · rw [if_neg eh, hi.link h j]
              by_cases e : i = j
              · subst e
                simp only [if_true, Option.some.injEq, hs]
                constructor
                · rintro ⟨_, y, rfl, h2⟩
                  exact ⟨_, y, rfl, by rw [AMap.get_insert, if_neg eh]; exact h2⟩
                · rintro ⟨_, y, rfl, h2⟩
                  rw [AMap.get_insert, if_neg eh] at h2
                  exact ⟨_, y, rfl, h2⟩
              · simp only [e, if_false]
          · intro h j hj
            have hj : AMap.get (AMap.insert s.smap s.next i) h = some j := hj
            show 0 < h ∧ h < s.next + 1
            have r0 : s.next ≠ 0 := by simpa [St.ready] using hr
            rw [AMap.get_insert] at hj
            by_cases e : s.next = h
            · omega
            · rw [if_neg e] at hj
              have := hi.bound h j hj
              omega
          · intro h; cases h

theorem dropSess_same (t : Token) (h : Nat) : Same t (t.dropSessionObjects h) := ⟨rfl, rfl, rfl⟩

theorem foldDrop_same (t : Token) (l : List Nat) : Same t (l.foldl Token.dropSessionObjects t) := by
  induction l generalizing t with
  | nil => exact .refl t
  | cons h l ih => exact (dropSess_same t h).trans (ih _)

theorem inv_close {e : Env} {s : St} {h : Nat} (hi : Inv s) : Inv (fnClose e s h).2 := by
  unfold fnClose
  split
  · exact hi
  · rename_i i sl hg
    obtain ⟨hr, hm, hs⟩ := getSessionSlot_ok hg
    have ok := hi.slot i sl hs
    split
    · exact hi
    · rename_i hin
      simp only
      generalize ht : (if AMap.erase sl.sessions h = [] then ((sl.token.dropSessionObjects h).logout e).2
        else sl.token.dropSessionObjects h) = t
      have hti : t.isInitialized = true := by
        have h0 : sl.token.isInitialized = true := by simpa using hin
        rw [← ht]
        split
        · rw [(logout_sameI _ _).init, (dropSess_same _ _).init]; exact h0
        · rw [(dropSess_same _ _).init]; exact h0
      have ht1 : AMap.erase sl.sessions h = [] → t.logged = none := by
        intro h0; rw [← ht, if_pos h0]; exact logout_logged _ _
      have ht2 : t.logged = some .so → sl.token.logged = some .so := by
        rw [← ht]
        split
        · rw [logout_logged]; intro h; cases h
        · intro h; exact h
      refine ⟨AMap.nodup_modify i (fun _ => _) hi.slotsND, AMap.nodup_erase _ hi.smapND, ?_, ?_, ?_, ?_⟩
      · intro j sl' hj
        rw [St.setSlot, AMap.get_modify] at hj
        by_cases e : i = j
        · subst e
          rw [if_pos rfl, hs] at hj; injection hj with hj; subst hj
          have ge : ∀ k y, AMap.get (AMap.erase sl.sessions h) k = some y → AMap.get sl.sessions k = some y := by
            intro k y hy
            rw [AMap.get_erase] at hy
            by_cases e : h = k
            · rw [if_pos e] at hy; cases hy
            · rw [if_neg e] at hy; exact hy
          exact ⟨AMap.nodup_erase _ ok.nd, fun k y hy => ok.here k y (ge k y hy), fun _ => hti, ht1,
            fun k y hy => ok.rw k y (ge k y hy), fun h0 k y hy => ok.so (ht2 h0) k y (ge k y hy)⟩
        · rw [if_neg e] at hj; exact hi.slot j sl' hj
      · intro k j
        rw [AMap.get_erase, St.setSlot]
        simp only [AMap.get_modify]
        by_cases eh : h = k
        · subst eh
          rw [if_pos rfl]
          constructor
          · intro h; cases h
          · rintro ⟨sl', y, h1, h2⟩
            by_cases e : i = j
            · subst e
              rw [if_pos rfl, hs] at h1; injection h1 with h1; subst h1
              simp [AMap.get_erase] at h2
            · rw [if_neg e] at h1
              have := (hi.link h j).2 ⟨sl', y, h1, h2⟩
              rw [hm] at this; injection this with this; exact absurd this e
        · rw [if_neg eh, hi.link k j]
          by_cases e : i = j
          · subst e
            simp only [if_true, Option.some.injEq, hs, Option.map_some]
            constructor
            · rintro ⟨_, y, rfl, h2⟩
              exact ⟨_, y, rfl, by rw [AMap.get_erase, if_neg eh]; exact h2⟩
            · rintro ⟨_, y, rfl, h2⟩
              rw [AMap.get_erase, if_neg eh] at h2
              exact ⟨_, y, rfl, h2⟩
          · simp only [e, if_false]
      · intro k j hj
        have hj : AMap.get (AMap.erase s.smap h) k = some j := hj
        rw [AMap.get_erase] at hj
        by_cases e : h = k
        · rw [if_pos e] at hj; cases hj
        · rw [if_neg e] at hj; exact hi.bound k j hj
      · intro h0
        have h0 : s.next = 0 := h0
        have := hi.off h0
        rw [this.1] at hs; cases hs

theorem inv_closeAll {e : Env} {s : St} {i : Nat} (hi : Inv s) : Inv (fnCloseAll e s i).2 := by
  unfold fnCloseAll
  split
  · exact hi
  · rename_i hr
    have hr : s.ready = true := by simpa using hr
    -- emptying the slot
    have key : ∀ (sl : Slot) (t : Token), AMap.get s.slots i = some sl → t.logged = none →
        Inv ({ s with smap := AMap.retain s.smap fun _ v => v ≠ i }.setSlot i ⟨t, []⟩) := by
      intro sl t hs ht
      refine ⟨AMap.nodup_modify i (fun _ => _) hi.slotsND, AMap.nodup_retain (fun _ v => decide (v ≠ i)) hi.smapND, ?_, ?_, ?_, ?_⟩
      · intro j sl' hj
        rw [St.setSlot, AMap.get_modify] at hj
        by_cases e : i = j
        · subst e
          rw [if_pos rfl] at hj
          have hs' : AMap.get { s with smap := AMap.retain s.smap fun _ v => v ≠ i }.slots i = some sl := hs
          rw [hs'] at hj; injection hj with hj; subst hj
          exact slotOk_nosess ht
        · rw [if_neg e] at hj; exact hi.slot j sl' hj
      · intro k j
        rw [St.setSlot]
        show AMap.get (AMap.retain s.smap fun _ v => v ≠ i) k = some j ↔ _
        rw [AMap.get_retain _ hi.smapND]
        simp only [AMap.get_modify]
        have l := hi.link k j
        by_cases e : i = j
        · subst e
          constructor
          · intro h
            rw [Option.filter_eq_some_iff] at h
            simp at h
          · rintro ⟨sl', y, h1, h2⟩
            rw [if_pos rfl, hs] at h1; injection h1 with h1; subst h1; cases h2
        · simp only [e, if_false]
          rw [← l, Option.filter_eq_some_iff]
          simp [Ne.symm e]
      · intro k j hj
        have hj : AMap.get (AMap.retain s.smap fun _ v => v ≠ i) k = some j := hj
        rw [AMap.get_retain _ hi.smapND, Option.filter_eq_some_iff] at hj
        exact hi.bound k j hj.1
      · intro h0
        have := hi.off h0
        rw [this.1] at hs; cases hs
    -- no slot: nothing in the map
    have none : AMap.get s.slots i = none →
        Inv { s with smap := AMap.retain s.smap fun _ v => v ≠ i } := by
      intro hn
      have : (AMap.retain s.smap fun _ v => decide (v ≠ i)) = s.smap := by
        unfold AMap.retain
        rw [List.filter_eq_self]
        intro p hp
        simp
        intro e
        have := AMap.get_of_mem hi.smapND (x := p.1) (v := p.2) hp
        obtain ⟨sl, x, h1, _⟩ := (hi.link p.1 p.2).1 this
        rw [e, hn] at h1; cases h1
      rw [this]; exact hi
    simp only
    split
    · rename_i r hg
      apply none
      unfold St.getSlot at hg
      have hr' : St.ready { s with smap := AMap.retain s.smap fun _ v => v ≠ i } = true := hr
      rw [hr'] at hg
      simp only [Bool.not_true, Bool.false_eq_true, if_false] at hg
      split at hg
      · cases hg
      · assumption
    · rename_i sl hg
      have hs : AMap.get s.slots i = some sl := (getSlot_ok hg).2
      have ok := hi.slot i sl hs
      split
      · rename_i hin
        apply key sl _ hs
        apply ok.out
        cases hl : sl.sessions with
        | nil => rfl
        | cons p l =>
          have := ok.inited (by rw [hl]; intro h; cases h)
          rw [this] at hin; cases hin
      · exact key sl _ hs (logout_logged _ _)

theorem inv_login {e : Env} {s : St} {h ut : Nat} {pin : Bytes} (hi : Inv s) :
    Inv (fnLogin C e s h ut pin).2 := by
  unfold fnLogin
  split
  · exact hi
  · rename_i i sl x hg
    obtain ⟨hr, hm, hs, hx⟩ := getSession_ok hg
    have ok := hi.slot i sl hs
    have ne : sl.sessions ≠ [] := by intro e; rw [e] at hx; cases hx
    have put : ∀ (t : Token) (l : List (Nat × Session)), SessSim sl.sessions l →
        t.isInitialized = sl.token.isInitialized →
        (t.logged = some .so → ∀ h x, AMap.get sl.sessions h = some x → x.isWritable = true) →
        Inv (s.setSlot i ⟨t, l⟩) := by
      intro t l sim h1 h2
      exact inv_setSlot hi hs (slotOk_sim ok sim h1 (fun h0 => absurd h0 ne) h2) (fun k => sim.handles k)
    have lo : ∀ (t : Token) (e : Env) (l : List (Nat × Session)), SessSim sl.sessions l →
        t.isInitialized = sl.token.isInitialized → Inv (s.setSlot i ⟨(t.logout e).2, l⟩) := by
      intro t e l sim h1
      exact put _ _ sim ((logout_sameI _ _).init.trans h1) (by rw [logout_logged]; intro h; cases h)
    split
    · exact hi
    · rename_i hro
      split
      · exact hi
      · split
        · rename_i hctx
          split
          · exact hi
          · have a := login_sameI (C := C) (e.sub 0) sl.token ut pin
            have b : (sl.token.login C (e.sub 0) ut pin).2.logged = sl.token.logged := by
              subst hctx
              unfold Token.login
              have : Token.userOf CKU_CONTEXT_SPECIFIC = none := by decide
              rw [this]
              simp only [if_true]
              cases hl : sl.token.logged with
              | none => exact hl
              | some u => simp only; rw [authUser_check_logged]; exact hl
            generalize sl.token.login C (e.sub 0) ut pin = p at a b ⊢
            obtain ⟨r, t⟩ := p
            simp only at a b ⊢
            have so : t.logged = some .so → ∀ h x, AMap.get sl.sessions h = some x → x.isWritable = true := by
              rw [b]; exact ok.so
            cases r with
            | ok _ =>
              refine put t _ ?_ a.init so
              refine ⟨AMap.keys_modify _ _ _, ?_⟩
              intro k y hy
              rw [AMap.get_modify] at hy
              by_cases e : h = k
              · subst e
                rw [if_pos rfl, hx] at hy; injection hy with hy; subst hy
                exact ⟨x, hx, rfl, rfl, rfl⟩
              · rw [if_neg e] at hy; exact ⟨y, hy, rfl, rfl, rfl⟩
            | error r =>
              simp only
              split
              · exact lo t _ _ (sim_invalidate _) a.init
              · exact put t _ (.refl _) a.init so
        · rename_i hctx
          have a := login_sameI (C := C) (e.sub 0) sl.token ut pin
          have b : (sl.token.login C (e.sub 0) ut pin).2.logged = sl.token.logged ∨
              ((sl.token.login C (e.sub 0) ut pin).1 = .ok () ∧
                (sl.token.login C (e.sub 0) ut pin).2.logged = Token.userOf ut) := by
            unfold Token.login
            split
            · rename_i u hu
              split
              · exact .inl rfl
              · split
                · exact .inl rfl
                · rcases authUser_logged (C := C) (e.sub 0) sl.token u pin false with h | h
                  · exact .inl h
                  · exact .inr ⟨h.2.1, h.2.2.trans hu.symm⟩
            · rw [if_neg hctx]; exact .inl rfl
          generalize sl.token.login C (e.sub 0) ut pin = p at a b ⊢
          obtain ⟨r, t⟩ := p
          have so : t.logged = some .so → ∀ h x, AMap.get sl.sessions h = some x → x.isWritable = true := by
            rcases b with b | b
            · simp only at b; rw [b]; exact ok.so
            · intro hl k y hy
              have hu : Token.userOf ut = some .so := by rw [← b.2]; exact hl
              have : ut = CKU_SO := by
                unfold Token.userOf at hu
                by_cases e : ut = CKU_SO
                · exact e
                · rw [if_neg e] at hu; split at hu <;> cases hu
              exact writable_of_not_ro (l := sl.sessions) (t := sl.token)
                (fun h => hro ⟨this, h⟩) hy
          cases r with
          | error r => exact put t _ (.refl _) a.init so
          | ok _ =>
            simp only
            generalize hc : Slot.changeLoop (Token.userOf ut) sl.sessions = q
            obtain ⟨r, l⟩ := q
            have sim := sim_changeLoop hc
            cases r with
            | none => exact put t _ sim a.init so
            | some r => exact lo t _ _ (sim.trans (sim_invalidate l)) a.init

theorem inv_logout {e : Env} {s : St} {h : Nat} (hi : Inv s) : Inv (fnLogout e s h).2 := by
  unfold fnLogout
  split
  · exact hi
  · rename_i i sl x hg
    obtain ⟨hr, hm, hs, hx⟩ := getSession_ok hg
    have ok := hi.slot i sl hs
    split
    · exact hi
    · have a := logout_sameI e sl.token
      have b := logout_logged e sl.token
      generalize sl.token.logout e = p at a b ⊢
      obtain ⟨r, t⟩ := p
      have put : ∀ l, SessSim sl.sessions l → Inv (s.setSlot i ⟨t, l⟩) := by
        intro l sim
        refine inv_setSlot hi hs (slotOk_sim ok sim a.init (fun _ => b) ?_) (fun k => sim.handles k)
        intro h
        have b : t.logged = none := b
        rw [b] at h; cases h
      cases r with
      | ok _ => exact put _ (sim_invalidate _)
      | error r => exact put _ (.refl _)

theorem inv_initToken {e : Env} {s : St} {i : Nat} {pin : Bytes} {l : Option Bytes} (hi : Inv s) :
    Inv (fnInitToken C e s i pin l).2 := by
  unfold fnInitToken
  split
  · exact hi
  · rename_i sl hg
    obtain ⟨hr, hs⟩ := getSlot_ok hg
    have ok := hi.slot i sl hs
    split
    · exact hi
    · rename_i hne
      have hne : sl.sessions = [] := by
        cases h : sl.sessions with
        | nil => rfl
        | cons p l => exact absurd (by rw [h]; intro h; cases h) hne
      have key : ∀ lab, Inv (s.setSlot i ⟨(sl.token.initToken C e pin lab).2, sl.sessions⟩) := by
        intro lab
        have b := initToken_logged (C := C) e sl.token pin lab (ok.out hne)
        rw [hne]
        refine inv_setSlot hi hs (slotOk_nosess b) ?_
        intro h; rw [hne]
      repeat' split
      all_goals
        simp only
        repeat' split
        all_goals exact key _

theorem inv_sess {s : St} {h i : Nat} {sl : Slot} {x x' : Session} {t : Token} (hi : Inv s)
    (hg : s.getSession h = .ok (i, sl, x)) (hx' : SameS x x') (ht : Same sl.token t) :
    Inv (s.setSlot i ⟨t, AMap.modify sl.sessions h fun _ => x'⟩) := by
  obtain ⟨hr, hm, hs, hx⟩ := getSession_ok hg
  have ok := hi.slot i sl hs
  have sim : SessSim sl.sessions (AMap.modify sl.sessions h fun _ => x') :=
    sim_modify hx hx'.slot hx'.flags (by unfold Session.isWritable; rw [hx'.state])
  exact inv_setSlot hi hs (slotOk_sim ok sim ht.init (fun h0 => by rw [ht.logged]; exact ok.out h0)
    (by rw [ht.logged]; exact ok.so)) (fun k => sim.handles k)

theorem inv_step (M : Mechs) (O : Oracle) (e : Env) (s : St) (c : Call) (hi : Inv s) :
    Inv (step M C O e s c).2 := by
  cases c with
  | «initialize» conf => exact inv_initialize hi
  | finalize =>
    show Inv (fnFinalize s).2
    unfold fnFinalize
    split
    · exact hi
    · exact inv_empty _ _
  | openSession i f => exact inv_open hi
  | closeSession h => exact inv_close hi
  | closeAll i => exact inv_closeAll hi
  | login h ut pin => exact inv_login hi
  | logout h => exact inv_logout hi
  | initToken i pin l => exact inv_initToken hi
  | getTokenInfo i =>
    simp only [step]
    split <;> exact hi
  | sess h c =>
    simp only [step]
    split
    · exact hi
    · rename_i i sl x hg
      exact inv_sess hi hg (sessStep_sameS O e h c x sl.token) (acts_same (acts_sessStep (D := fun _ => True) (N := True) O e c x sl.token (fun _ _ => trivial) (Z := .all) (fun _ => trivial) (fun _ => trivial) fun _ _ _ _ _ _ _ _ _ => trivial))
  | op h c =>
    simp only [step]
    split
    · exact hi
    · rename_i i sl x hg
      exact inv_sess hi hg (opStep_sameS M e h c x sl.token) (acts_same (acts_opStep (Z := .all) (D := fun _ => True) (N := True) M e c x sl.token (fun _ _ => trivial) fun _ => trivial))
  | crash => exact inv_empty _ _

theorem inv_run (M : Mechs) (O : Oracle) (tr : Trace) (s : St) (hi : Inv s) : Inv (run M C O s tr) := by
  induction tr generalizing s with
  | nil => exact hi
  | cons p tr ih =>
    obtain ⟨e, c⟩ := p
    exact ih _ (inv_step M O e s c hi)

theorem inv_reach (M : Mechs) (O : Oracle) (d : List (Nat × Db)) (tr : Trace) :
    Inv (run M C O (St.init d) tr) := inv_run M O tr _ (inv_empty d 0)

end Kry
