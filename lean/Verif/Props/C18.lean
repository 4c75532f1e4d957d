import Verif.Proofs.FetchQuiet
import Verif.Proofs.Dead
import Verif.Props.C10
import Verif.Props.ExMechs

/-!
# C18: CKA_MODIFIABLE, CKA_DESTROYABLE and CKA_COPYABLE are honoured

An object whose attribute is reported as false is refused by the call, with nothing changed (`_refused`);
and when storage works the code is CKR_ACTION_PROHIBITED (`_code`), unless the call is refused before
because nobody is logged in or the session is read-only.
-/

namespace Kry

open Spec

variable (M : Mechs) (C : Crypto) (O : Oracle)

/-- Whatever part of the object is read, a flag reported as false reads as false. -/
theorem flag_false {s : St} {i h n ty : Nat} (hi : Inv s) (ht : TInv s)
    (hr : reports M C O s h n ty [0]) (ho : onSlot M C O s h i) (hp : plainTy ty)
    (hk : attrKind ty = some .bool) (hpr : proper s i n ty) :
    ∃ sl, AMap.get s.slots i = some sl ∧ ∀ e hints o d, (ty ∈ hints ∨ hints = []) →
      sl.token.looked C e n hints = .ok o → o.boolOr ty d = false := by
  obtain ⟨j, sl, x, e, hints, o, a, hm, hs, hx, hl, hin, _, hf, _, hval⟩ := reports_obj hi hr
  rw [(onSlot_iff hi).1 ho] at hm; injection hm with hm; subst hm
  refine ⟨sl, hs, fun e' hints' o' d hin' hl' => ?_⟩
  have key : ∃ b, o'.find ty = some b ∧ b.atype = .bool ∧ b.value = [0] := by
    unfold Token.looked at hl hl'
    split at hl
    · rename_i o1 h1
      simp only [h1] at hl'
      injection hl with hl; subst hl
      injection hl' with hl'; subst hl'
      refine ⟨a, hf, hpr _ _ ?_ hf, hval⟩
      unfold sessionObj
      rw [hs]; exact h1
    · rename_i h1
      simp only [h1] at hl'
      have hin2 : ty ∈ fetchHints hints' ∨ hints' = [] := hin'.imp mem_fetchHints id
      have := fetch_agree (ht.slots i sl hs) hl hl' hp (.inl (mem_fetchHints hin)) hin2
      refine ⟨a, by rw [← this]; exact hf, ?_, hval⟩
      obtain ⟨u, rows, _, _, _, _, hrow⟩ := fetch_row (ht.slots i sl hs) hl
      have hrow := hrow ty hp (.inl (mem_fetchHints hin))
      split at hrow
      · rw [hrow] at hf; cases hf
      · rename_i v hv
        obtain ⟨b, hb, hfb⟩ := hrow
        rw [hf] at hfb; injection hfb with hfb; subst hfb
        unfold decodeRow at hb
        rw [hk] at hb
        simp only at hb
        split at hb
        · injection hb with hb; rw [← hb]; rfl
        · cases hb
  obtain ⟨b, hb, hbt, hbv⟩ := key
  unfold Obj.boolOr Attr.toBool
  rw [hb]
  simp only [hbt, hbv]
  rfl

theorem byHandle_looked {e : Env} {t : Token} {n : Nat} {o : Obj} (h : t.getObjectByHandle C e n = .ok o) :
    t.looked C e n [] = .ok o := by
  unfold Token.getObjectByHandle at h
  extract_lets obj at h
  unfold Token.looked
  change obj = _
  rcases ho : obj with r | x
  · simp only [ho] at h; cases h
  · simp only [ho] at h
    split at h
    · cases h
    · exact h

/-- How one call on a session shows in the whole state when it leaves session and token alone. -/
theorem step_still {e : Env} {s : St} {h i : Nat} {sl : Slot} {x : Session} {c : SCall} {o : Out} (hi : Inv s)
    (hg : s.getSession h = .ok (i, sl, x)) (hs : AMap.get s.slots i = some sl) (hx : AMap.get sl.sessions h = some x)
    (hc : sessStep C O e h c x sl.token = (o, x, sl.token)) : step M C O e s (.sess h c) = (o, s) := by
  simp only [step, hg, hc]
  rw [setSlot_same hi hs hx]

section
variable {C}
variable {e : Env} {x : Session} {t : Token} {n : Nat} {tm : Template}

/-- The token reads attribute `ty` of object `n` as false, whatever is read. -/
def Off (C : Crypto) (t : Token) (n ty : Nat) : Prop :=
  ∀ e hints o d, (ty ∈ hints ∨ hints = []) → t.looked C e n hints = .ok o → o.boolOr ty d = false

/-- The token can read object `n` when storage works. -/
def CanRead (C : Crypto) (t : Token) (n : Nat) : Prop :=
  (∀ e hints, quiet e → (∀ t ∈ fetchHints hints, t < 2 ^ 32) → ∃ o, t.looked C e n hints = .ok o) ∧
    ∀ e hints o, t.looked C e n hints = .ok o → ∃ F, objFactory o = .ok F

theorem byHandle_reads (hr : CanRead C t n) (q : quiet e) : (∃ o, t.getObjectByHandle C e n = .ok o) ∨
    (t.getObjectByHandle C e n = .error .userNotLoggedIn ∧ t.logged = none) := by
  obtain ⟨o, ho⟩ := hr.1 e [] q (by intro t ht; cases ht)
  unfold Token.getObjectByHandle
  extract_lets obj
  have : obj = .ok o := ho
  rw [this]
  simp only
  split
  · rename_i hc
    refine .inr ⟨rfl, ?_⟩
    cases hl : t.logged with
    | none => rfl
    | some u => simp [Token.loggedIn, hl] at hc
  · exact .inl ⟨_, rfl⟩

theorem setAttr_off (nd : (AMap.keys t.sess).Nodup) (hi : t.isInitialized = true) (hno : Off C t n CKA_MODIFIABLE) :
    ∃ r, fnSetAttr C e x t n tm = (.error r, t) ∧ (quiet e → CanRead C t n → r = .actionProhibited ∨
      (r = .userNotLoggedIn ∧ t.logged = none) ∨ (r = .sessionReadOnly ∧ x.isWritable = false)) := by
  unfold fnSetAttr
  rw [hi]
  simp only [Bool.not_true, Bool.false_eq_true, if_false]
  split
  · rename_i r hr
    refine ⟨_, rfl, fun q rd => ?_⟩
    rcases byHandle_reads rd (quiet_sub q 0) with ⟨o, ho⟩ | ⟨ho, hl⟩
    · rw [ho] at hr; cases hr
    · rw [ho] at hr; injection hr with hr; exact .inr (.inl ⟨hr.symm, hl⟩)
  split
  · rename_i hc
    refine ⟨_, rfl, fun _ _ => .inr (.inl ⟨rfl, ?_⟩)⟩
    cases hl : t.logged with
    | none => rfl
    | some u => simp [Token.loggedIn, hl] at hc
  split
  · rename_i hc
    exact ⟨_, rfl, fun _ _ => .inr (.inr ⟨rfl, by simp at hc; exact hc.2⟩)⟩
  unfold Token.setObjectAttrs
  have hno' := hno (e := (e.sub 1).sub 0) (hints := [CKA_CLASS, CKA_KEY_TYPE, CKA_MODIFIABLE])
  unfold Token.looked at hno'
  split
  · rename_i o1 h1
    simp only [h1] at hno'
    split
    · rename_i r hr
      refine ⟨_, rfl, fun q rd => ?_⟩
      obtain ⟨F, hF⟩ := rd.2 e [] o1 (by unfold Token.looked; simp only [h1])
      rw [hF] at hr; cases hr
    · have hm : o1.isModifiable = false := hno' o1 true (.inl (by simp)) rfl
      unfold setObjectAttributes
      rw [hm]
      refine ⟨.actionProhibited, ?_, fun _ _ => .inl rfl⟩
      simp [AMap.modify_self nd h1]
  · rename_i h1
    simp only [h1] at hno'
    split
    · rename_i hc
      refine ⟨_, rfl, fun _ _ => .inr (.inl ⟨rfl, ?_⟩)⟩
      cases hl : t.logged with
      | none => rfl
      | some u => simp [Token.loggedIn, hl] at hc
    · split
      · rename_i r hr
        refine ⟨_, rfl, fun q rd => ?_⟩
        obtain ⟨o, ho⟩ := rd.1 ((e.sub 1).sub 0) [CKA_CLASS, CKA_KEY_TYPE, CKA_MODIFIABLE]
          (quiet_sub (quiet_sub q 1) 0) (by decide)
        unfold Token.looked at ho
        simp only [h1] at ho
        rw [ho] at hr; cases hr
      · rename_i o2 h2
        split
        · rename_i r hr
          refine ⟨_, rfl, fun q rd => ?_⟩
          obtain ⟨F, hF⟩ := rd.2 ((e.sub 1).sub 0) [CKA_CLASS, CKA_KEY_TYPE, CKA_MODIFIABLE] o2 (by
            unfold Token.looked; simp only [h1]; exact h2)
          rw [hF] at hr; cases hr
        · have hm : o2.isModifiable = false := hno' o2 true (.inl (by simp)) h2
          rw [hm]
          exact ⟨_, rfl, fun _ _ => .inl rfl⟩

theorem destroy_off (hi : t.isInitialized = true) (hno : Off C t n CKA_DESTROYABLE) :
    ∃ r, fnDestroy C e x t n = (.error r, t) ∧ (quiet e → CanRead C t n → r = .actionProhibited ∨
      (r = .userNotLoggedIn ∧ t.logged = none)) := by
  unfold fnDestroy
  rw [hi]
  simp only [Bool.not_true, Bool.false_eq_true, if_false]
  split
  · rename_i r hr
    refine ⟨_, rfl, fun q rd => ?_⟩
    rcases byHandle_reads rd (quiet_sub q 0) with ⟨o, ho⟩ | ⟨ho, hl⟩
    · rw [ho] at hr; cases hr
    · rw [ho] at hr; injection hr with hr; exact .inr ⟨hr.symm, hl⟩
  split
  · exact ⟨_, rfl, fun _ _ => .inl rfl⟩
  unfold Token.destroyObject
  have hno' := hno (e := (e.sub 1).sub 0) (hints := [CKA_DESTROYABLE])
  unfold Token.looked at hno'
  split
  · rename_i o1 h1
    simp only [h1] at hno'
    have hm : o1.isDestroyable = false := hno' o1 false (.inl (by simp)) rfl
    rw [hm]
    exact ⟨_, rfl, fun _ _ => .inl rfl⟩
  · rename_i h1
    simp only [h1] at hno'
    split
    · rename_i r hr
      refine ⟨_, rfl, fun q rd => ?_⟩
      obtain ⟨o, ho⟩ := rd.1 ((e.sub 1).sub 0) [CKA_DESTROYABLE] (quiet_sub (quiet_sub q 1) 0) (by decide)
      unfold Token.looked at ho
      simp only [h1] at ho
      rw [ho] at hr; cases hr
    · rename_i o2 h2
      have hm : o2.isDestroyable = false := hno' o2 false (.inl (by simp)) h2
      rw [hm]
      exact ⟨_, rfl, fun _ _ => .inl rfl⟩

theorem copy_off {h : Nat} (hi : t.isInitialized = true) (hno : Off C t n CKA_COPYABLE) :
    ∃ r, fnCopy C e h x t n tm = (.error r, t) ∧ (quiet e → CanRead C t n → r = .actionProhibited ∨
      (r = .userNotLoggedIn ∧ t.logged = none) ∨ x.isWritable = false) := by
  unfold fnCopy
  split
  · rename_i r hr
    refine ⟨_, rfl, fun _ _ => .inr (.inr ?_)⟩
    split at hr
    · cases hr
    · rename_i hw; simpa using hw
  rw [hi]
  simp only [Bool.not_true, Bool.false_eq_true, if_false]
  unfold Token.copyObject
  have hno' := hno (e := e.sub 0) (hints := [])
  unfold Token.looked at hno'
  cases h1 : AMap.get t.sess n with
  | some o1 =>
    simp only [h1] at hno' ⊢
    have hm : o1.isCopyable = false := hno' o1 true (.inr trivial) rfl
    unfold factoriesCopy
    rw [hm]
    exact ⟨_, rfl, fun _ _ => .inl rfl⟩
  | none =>
    simp only [h1] at hno' ⊢
    cases h2 : t.store.fetch C (e.sub 0) t.handles n [] with
    | error r =>
      refine ⟨_, rfl, fun q rd => ?_⟩
      obtain ⟨o, ho⟩ := rd.1 (e.sub 0) [] (quiet_sub q 0) (by intro t ht; cases ht)
      unfold Token.looked at ho
      simp only [h1] at ho
      rw [ho] at h2; cases h2
    | ok o2 =>
      have hm : o2.isCopyable = false := hno' o2 true (.inr trivial) h2
      by_cases hc : (!t.loggedIn && o2.isPrivate) = true
      · simp only [hc, if_true]
        refine ⟨_, rfl, fun _ _ => .inr (.inl ⟨rfl, ?_⟩)⟩
        cases hl : t.logged with
        | none => rfl
        | some u => simp [Token.loggedIn, hl] at hc
      · simp only [hc, Bool.false_eq_true, if_false]
        unfold factoriesCopy
        rw [hm]
        exact ⟨_, rfl, fun _ _ => .inl rfl⟩
end

/-- What the API shows of a false flag, in terms of the token. -/
theorem off_of {s : St} {i h h' n ty : Nat} (hi : Inv s) (ht : TInv s) (ho : onSlot M C O s h i)
    (ho' : onSlot M C O s h' i) (hr : reports M C O s h' n ty [0]) (hp : plainTy ty)
    (hk : attrKind ty = some .bool) (hpr : proper s i n ty) :
    ∃ sl x, AMap.get s.slots i = some sl ∧ AMap.get sl.sessions h = some x ∧ s.getSession h = .ok (i, sl, x) ∧
      sl.token.isInitialized = true ∧ Off C sl.token n ty ∧ (readable M C O s h' n → CanRead C sl.token n) := by
  obtain ⟨sl, hs, hno⟩ := flag_false M C O hi ht hr ho' hp hk hpr
  obtain ⟨sl1, x, hg, hs1, hx⟩ := getSession_live hi ((onSlot_iff hi).1 ho)
  rw [hs] at hs1; injection hs1 with hs1; subst hs1
  refine ⟨sl, x, hs, hx, hg, (hi.slot i sl hs).inited (by intro hz; rw [hz] at hx; cases hx), hno, ?_⟩
  rintro ⟨e, k, q, hsz⟩
  obtain ⟨j, sl2, x2, e2, hints2, o2, a2, hm2, hs2, hx2, hl2, hin2, _, hf2, hF2, _⟩ := reports_obj hi hr
  rw [(onSlot_iff hi).1 ho'] at hm2; injection hm2 with hm2; subst hm2
  rw [hs] at hs2; injection hs2 with hs2; subst hs2
  obtain ⟨sl3, x3, hg3, hs3, hx3⟩ := getSession_live hi ((onSlot_iff hi).1 ho')
  rw [hs] at hs3; injection hs3 with hs3; subst hs3
  simp only [step, hg3, sessStep] at hsz
  split at hsz
  · cases hsz
  · cases hsess : AMap.get sl.token.sess n with
    | some o =>
      unfold Token.looked at hl2
      simp only [hsess] at hl2
      injection hl2 with hl2; subst hl2
      refine ⟨fun e' hints' _ _ => ⟨o, by unfold Token.looked; simp only [hsess]⟩, fun e' hints' o' hl => ?_⟩
      unfold Token.looked at hl
      simp only [hsess] at hl
      injection hl with hl; subst hl
      exact hF2
    | none =>
      refine ⟨fun e' hints' q' hh => ?_, fun e' hints' o' hl => ?_⟩
      · unfold Token.looked
        simp only [hsess]
        simp only [Token.getObjectSize, hsess] at hsz
        cases hf : sl.token.store.fetch C e sl.token.handles n [] with
        | error r => simp only [hf] at hsz; cases hsz
        | ok o => exact (fetch_sub q' (ht.slots i sl hs) hh hf).imp fun _ h => h.1
      · unfold Token.looked at hl
        simp only [hsess] at hl
        exact fetch_factory hl

theorem ro_of {s : St} {h i : Nat} {sl : Slot} {x : Session} (hg : s.getSession h = .ok (i, sl, x))
    (hw : x.isWritable = false) : readOnly M C O s h := by
  refine ⟨⟨fun _ => none, fun _ => [], fun _ => []⟩, x.slot, x.state, x.flags, ?_, ?_⟩
  · unfold step
    simp only [hg]
    rfl
  · unfold Session.isWritable at hw
    cases hx : x.state <;> simp [hx] at hw ⊢

/-- C_SetAttributeValue on an object whose CKA_MODIFIABLE is reported as false fails and changes nothing;
with storage working the code is CKR_ACTION_PROHIBITED unless nobody is logged in or the session is
read-only. -/
theorem C18_modifiable (hM : OrderlyMechs M) (d : List (Nat × Db))
    (hd : ∀ p ∈ d, TblOk p.2.objs) (tr : Trace) (e : Env) (i n h h' : Nat)
    (tm : Template) (ho : onSlot M C O (after M C O d tr) h i) (ho' : onSlot M C O (after M C O d tr) h' i)
    (hr : reports M C O (after M C O d tr) h' n CKA_MODIFIABLE [0]) :
    ∃ r, step M C O e (after M C O d tr) (.sess h (.setAttr n tm)) = (.err r, after M C O d tr) ∧
      (quiet e → readable M C O (after M C O d tr) h' n → r = .actionProhibited ∨
        (r = .userNotLoggedIn ∧ loggedOut (after M C O d tr) i) ∨
        (r = .sessionReadOnly ∧ readOnly M C O (after M C O d tr) h)) := by
  have hi : Inv (after M C O d tr) := inv_reach M O d tr
  have hv : HInv (after M C O d tr) := hinv_reach M O d tr
  have ht : TInv (after M C O d tr) := tinv_reach M O hd tr
  have hn : OInv (after M C O d tr) := oinv_reach hM hd tr
  generalize after M C O d tr = s at *
  obtain ⟨sl, x, hs, hx, hg, hin, hoff, hrd⟩ := off_of M C O hi ht ho ho' hr plain_modifiable (by decide +kernel)
    (hn.proper i n (by decide +kernel))
  obtain ⟨r, hc, hcode⟩ := setAttr_off (e := e) (x := x) (tm := tm) (hv i sl hs).ok.nd hin hoff
  refine ⟨r, step_still M C O hi hg hs hx (by simp only [sessStep, hc]; rfl), fun q rd => ?_⟩
  rcases hcode q (hrd rd) with h1 | ⟨h1, h2⟩ | ⟨h1, h2⟩
  · exact .inl h1
  · refine .inr (.inl ⟨h1, fun sl' hs' => ?_⟩)
    rw [hs] at hs'; injection hs' with hs'; rw [← hs']; exact h2
  · exact .inr (.inr ⟨h1, ro_of M C O hg h2⟩)

/-- C_DestroyObject on an object whose CKA_DESTROYABLE is reported as false fails and changes nothing; with
storage working the code is CKR_ACTION_PROHIBITED unless nobody is logged in. -/
theorem C18_destroyable (hM : OrderlyMechs M) (d : List (Nat × Db))
    (hd : ∀ p ∈ d, TblOk p.2.objs) (tr : Trace) (e : Env) (i n h h' : Nat)
    (ho : onSlot M C O (after M C O d tr) h i) (ho' : onSlot M C O (after M C O d tr) h' i)
    (hr : reports M C O (after M C O d tr) h' n CKA_DESTROYABLE [0]) :
    ∃ r, step M C O e (after M C O d tr) (.sess h (.destroyObject n)) = (.err r, after M C O d tr) ∧
      (quiet e → readable M C O (after M C O d tr) h' n → r = .actionProhibited ∨
        (r = .userNotLoggedIn ∧ loggedOut (after M C O d tr) i)) := by
  have hi : Inv (after M C O d tr) := inv_reach M O d tr
  have ht : TInv (after M C O d tr) := tinv_reach M O hd tr
  have hn : OInv (after M C O d tr) := oinv_reach hM hd tr
  generalize after M C O d tr = s at *
  obtain ⟨sl, x, hs, hx, hg, hin, hoff, hrd⟩ := off_of M C O hi ht ho ho' hr plain_destroyable (by decide +kernel)
    (hn.proper i n (by decide +kernel))
  obtain ⟨r, hc, hcode⟩ := destroy_off (e := e) (x := x) hin hoff
  refine ⟨r, step_still M C O hi hg hs hx (by simp only [sessStep, hc]; rfl), fun q rd => ?_⟩
  rcases hcode q (hrd rd) with h1 | ⟨h1, h2⟩
  · exact .inl h1
  · refine .inr ⟨h1, fun sl' hs' => ?_⟩
    rw [hs] at hs'; injection hs' with hs'; rw [← hs']; exact h2

/-- C_CopyObject of an object whose CKA_COPYABLE is reported as false fails and changes nothing; with storage
working the code is CKR_ACTION_PROHIBITED unless nobody is logged in or the session is read-only. -/
theorem C18_copyable (hM : OrderlyMechs M) (d : List (Nat × Db))
    (hd : ∀ p ∈ d, TblOk p.2.objs) (tr : Trace) (e : Env) (i n h h' : Nat)
    (tm : Template) (ho : onSlot M C O (after M C O d tr) h i) (ho' : onSlot M C O (after M C O d tr) h' i)
    (hr : reports M C O (after M C O d tr) h' n CKA_COPYABLE [0]) :
    ∃ r, step M C O e (after M C O d tr) (.sess h (.copyObject n tm)) = (.err r, after M C O d tr) ∧
      (quiet e → readable M C O (after M C O d tr) h' n → r = .actionProhibited ∨
        (r = .userNotLoggedIn ∧ loggedOut (after M C O d tr) i) ∨ readOnly M C O (after M C O d tr) h) := by
  have hi : Inv (after M C O d tr) := inv_reach M O d tr
  have ht : TInv (after M C O d tr) := tinv_reach M O hd tr
  have hn : OInv (after M C O d tr) := oinv_reach hM hd tr
  generalize after M C O d tr = s at *
  obtain ⟨sl, x, hs, hx, hg, hin, hoff, hrd⟩ := off_of M C O hi ht ho ho' hr plain_copyable (by decide +kernel)
    (hn.proper i n (by decide +kernel))
  obtain ⟨r, hc, hcode⟩ := copy_off (e := e) (x := x) (tm := tm) (h := h) hin hoff
  refine ⟨r, step_still M C O hi hg hs hx (by simp only [sessStep, hc]; rfl), fun q rd => ?_⟩
  rcases hcode q (hrd rd) with h1 | ⟨h1, h2⟩ | h2
  · exact .inl h1
  · refine .inr (.inl ⟨h1, fun sl' hs' => ?_⟩)
    rw [hs] at hs'; injection hs' with hs'; rw [← hs']; exact h2
  · exact .inr (.inr (ro_of M C O hg h2))

/-! ## Concrete cases -/

/-- A data object that may not be changed, destroyed or copied. -/
def exFixed (v : UInt8) (tok : Bool) : Template :=
  [.ofUlong CKA_CLASS CKO_DATA, .mk' CKA_VALUE [v], .ofBool CKA_TOKEN tok, .ofBool CKA_PRIVATE false,
   .ofBool CKA_MODIFIABLE false, .ofBool CKA_DESTROYABLE false, .ofBool CKA_COPYABLE false]

/-- Login; a fixed token object (handle 8), a fixed session object (9) and an ordinary token object (10). -/
def exFix : Trace := exStart ++
  [(exEnv 6, .login 1 CKU_USER exPin), (exEnv 7, .sess 1 (.createObject (exFixed 1 true))),
   (exEnv 8, .sess 1 (.createObject (exFixed 2 false))), (exEnv 9, .sess 1 (.createObject (exTokData 3)))]

/-- Ask for a boolean attribute. -/
def askBool (ty : Nat) : OutAttr := ⟨ty, false, 1, []⟩

set_option maxRecDepth 10000 in
theorem exFix_on : onSlot exMechs exCrypto exOracle (exRun exFix) 1 7 :=
  ⟨exEnv 0, .rwUser, CKF_RW_SESSION ||| CKF_SERIAL_SESSION, by decide +kernel⟩

set_option maxRecDepth 10000 in
/-- The hypotheses of the three theorems hold of objects 8 and 9. -/
example : ∀ n ∈ [8, 9], ∀ ty ∈ [CKA_MODIFIABLE, CKA_DESTROYABLE, CKA_COPYABLE],
    reports exMechs exCrypto exOracle (exRun exFix) 1 n ty [0] := by
  intro n hn ty hty
  refine ⟨exEnv 30, askBool ty, ⟨ty, false, 1, [0]⟩, rfl, rfl, ?_, rfl⟩
  revert n ty
  decide +kernel

set_option maxRecDepth 10000 in
example : exOuts (exFix ++ [(exEnv 10, .sess 1 (.setAttr 8 [.mk' CKA_VALUE [9]])),
    (exEnv 11, .sess 1 (.destroyObject 8)), (exEnv 12, .sess 1 (.copyObject 8 [])),
    (exEnv 10, .sess 1 (.setAttr 9 [.mk' CKA_VALUE [9]])),
    (exEnv 11, .sess 1 (.destroyObject 9)), (exEnv 12, .sess 1 (.copyObject 9 []))]) =
    exOuts exFix ++ List.replicate 6 (.err .actionProhibited) := by decide +kernel

end Kry
