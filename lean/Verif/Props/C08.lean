import Verif.Props.C05
import Verif.Proofs.KeyFacts

/-!
# C07–C09: changing PINs and re-initialising a token
-/

namespace Kry

open Spec

/-- `p` opens the record of user `u` in the database of slot `i`: it is the user's PIN, whether or not the
user is locked out.  `dbAt` is the database file, in use or on disk; `decryptKey` is `decrypt_key`
(`src/storage/aci.rs:204-249`). -/
def pinIs (C : Crypto) (s : St) (i : Nat) (u : User) (p : Bytes) : Prop :=
  ∃ b k, AMap.get (dbAt s i).metaT (.userData u) = some b ∧ decryptKey C quietEnv u.id p b = .ok k

/-- User `u` of slot `i` has no PIN. -/
def noPin (s : St) (i : Nat) (u : User) : Prop := AMap.get (dbAt s i).metaT (.userData u) = none

variable {M : Mechs} {C : Crypto} {O : Oracle}

theorem pinIs_iff {s : St} {i : Nat} {K : Bytes} {v : Nat} {π : Pins} (h : SlotV C s i K v π) (u : User) (p : Bytes) :
    pinIs C s i u p ↔ Right C π u p := by
  unfold pinIs Right
  cases hπ : π u with
  | none =>
    rw [(h.1.absent u hπ).1]
    exact ⟨fun ⟨_, _, h, _⟩ => (nomatch h), fun ⟨_, _, h, _⟩ => (nomatch h)⟩
  | some x =>
    obtain ⟨q, n⟩ := x
    obtain ⟨_, _, b, hb, hw⟩ := h.1.present u q n hπ
    rw [hb]
    constructor
    · rintro ⟨b', k, e1, e2⟩
      injection e1 with e1; subst e1
      rw [decryptKey_wrapped hw rfl] at e2
      split at e2
      · exact ⟨q, n, rfl, by assumption⟩
      · cases e2
    · rintro ⟨q', n', e1, e2⟩
      injection e1 with e1; injection e1 with e1 _; subst e1
      exact ⟨b, (v, K), rfl, by rw [decryptKey_wrapped hw rfl, if_pos e2]⟩

theorem noPin_iff {s : St} {i : Nat} {K : Bytes} {v : Nat} {π : Pins} (h : SlotV C s i K v π) (u : User) :
    noPin s i u ↔ π u = none := by
  unfold noPin
  cases hπ : π u with
  | none => simp [(h.1.absent u hπ).1]
  | some x =>
    obtain ⟨q, n⟩ := x
    obtain ⟨_, _, b, hb, _⟩ := h.1.present u q n hπ
    simp [hb]

theorem right_same {π π' : Pins} (hs : samePins π π') (u : User) (p : Bytes) : Right C π u p ↔ Right C π' u p := by
  have h := hs u
  unfold Right
  cases h1 : π u with
  | none =>
    rw [h1] at h
    cases h2 : π' u with
    | none => exact Iff.rfl
    | some y => rw [h2] at h; cases h
  | some x =>
    rw [h1] at h
    cases h2 : π' u with
    | none => rw [h2] at h; cases h
    | some y =>
      rw [h2] at h
      obtain ⟨a, n⟩ := x
      obtain ⟨b, m⟩ := y
      injection h with h
      simp only at h
      subst h
      constructor
      · rintro ⟨q, k, e, h⟩; injection e with e; injection e with e _; subst e; exact ⟨_, _, rfl, h⟩
      · rintro ⟨q, k, e, h⟩; injection e with e; injection e with e _; subst e; exact ⟨_, _, rfl, h⟩

theorem right_setU_ne {π π1 : Pins} {u w : User} {x : Option (Bytes × Nat)} {p : Bytes} (hs : samePins π π1) (h : w ≠ u) :
    Right C π w p ↔ Right C (setU π1 u x) w p := by
  rw [right_same hs]
  unfold Right setU
  rw [if_neg h]

theorem right_setU {π : Pins} {u : User} {q p : Bytes} {n : Nat} :
    Right C (setU π u (some (q, n))) u p ↔ C.pinKey p = C.pinKey q := by
  unfold Right setU
  rw [if_pos rfl]
  constructor
  · rintro ⟨a, b, e, h⟩; injection e with e; injection e with e _; subst e; exact h
  · intro h; exact ⟨q, n, rfl, h⟩

/-! ## C08 -/

/-- The calls by which the PIN of user `u` of slot `i` may change; `s` is the state before, `o` and `b` are
the observer's notebooks before. -/
inductive mayChangePin (C : Crypto) (s : St) (o : Obs) (b : PinBook) (i : Nat) (u : User) : Call → Out → Prop where
  | setPin {h : Nat} {t : List Nat} {old new : Bytes} (hs : o.slotsOf h = i :: t) (hu : (o.who i).getD .user = u)
      (hp : pinIs C s i u old) : mayChangePin C s o b i u (.sess h (.setPin old new)) .ok
  | initPin {h : Nat} {t : List Nat} {pin : Bytes} (hs : o.slotsOf h = i :: t) (hw : o.who i = some .so) (hu : u = .user) :
      mayChangePin C s o b i u (.sess h (.initPin pin)) .ok
  | initToken {pin : Bytes} {l : Option Bytes} {out : Out} (hp : b.known i = true → pinIs C s i .so pin) :
      mayChangePin C s o b i u (.initToken i pin l) out

/-- A PIN changes only by C_SetPIN that presents the current one, by C_InitPIN while the SO is logged in, or
by C_InitToken that presents the SO's PIN (or meets a token not initialised).  For every history, with plain
faults and crashes anywhere. -/
theorem C08_authorised (tr : Trace) (hp : ∀ p ∈ tr, plain p.1) (e : Env) (he : plain e) (c : Call) (i : Nat) (u : User) (p : Bytes)
    (hch : ¬ (pinIs C (step M C O e (after M C O [] tr) c).2 i u p ↔ pinIs C (after M C O [] tr) i u p)) :
    mayChangePin C (after M C O [] tr) (pinNotes M C O tr).1 (pinNotes M C O tr).2 i u c (step M C O e (after M C O [] tr) c).1 := by
  have a := agree_notes (C := C) M O tr
  have iv := pinInv_reach (C := C) M O tr i hp
  obtain ⟨K, v, π, hv, ham⟩ := iv.among
  obtain ⟨K', v', π', ini, s1, s2, s3, _, _, _⟩ := step_pins M O c (inv_reach (C := C) M O [] tr) a he hv
  change SlotV C (after M C O [] tr) i K v π at hv
  change SlotV C (step M C O e (after M C O [] tr) c).2 i K' v' π' at s1
  change PinEff C e _ i ini π c (step M C O e (after M C O [] tr) c).1 π' at s3
  rw [pinIs_iff s1, pinIs_iff hv] at hch
  generalize (step M C O e (after M C O [] tr) c).1 = out at s3 ⊢
  have hini : ini = true → ∀ q, Right C π .so q → pinIs C (after M C O [] tr) i .so q := fun _ q h => (pinIs_iff hv _ _).2 h
  cases s3 with
  | still _ _ => exact absurd Iff.rfl hch
  | login _ hs _ _ => exact absurd (right_same hs u p).symm hch
  | @setPin h w old new _ _ hpr hn hok _ =>
    by_cases ho : out = .ok
    · subst ho
      obtain ⟨h1, π1, h2, h3⟩ := hok rfl
      have hw : w = u := by
        cases Decidable.em (u = w) with
        | inl h => exact h.symm
        | inr h => subst h3; exact absurd (right_setU_ne h2 h).symm hch
      subst hw
      have : ∃ t, (pinNotes M C O tr).1.slotsOf h = i :: t ∧ ((pinNotes M C O tr).1.who i).getD .user = w := by
        unfold presents at hpr
        simp only at hpr
        split at hpr
        · cases hpr
        · rename_i j t hsl
          injection hpr with hpr; injection hpr with e1 e2; injection e2 with e2 _
          subst e1
          exact ⟨t, hsl, e2⟩
      obtain ⟨t, h4, h5⟩ := this
      exact .setPin h4 h5 ((pinIs_iff hv _ _).2 h1)
    · exact absurd (right_same (hn ho) u p).symm hch
  | initPin hs hn hok =>
    by_cases ho : out = .ok
    · subst ho
      obtain ⟨h1, π1, h2, _, h3⟩ := hok rfl
      refine .initPin hs h1 ?_
      cases Decidable.em (u = .user) with
      | inl h => exact h
      | inr h => subst h3; exact absurd (right_setU_ne h2 h).symm hch
    · exact absurd (right_same (hn ho).1 u p).symm hch
  | initToken h =>
    have kn : (pinNotes M C O tr).2.known i = true → ini = true := fun hk => s2 (iv.known hk)
    cases h with
    | refused _ _ hs _ => exact absurd (right_same hs u p).symm hch
    | kept hr hs => exact absurd (right_same hs u p).symm hch
    | wiped hr _ => exact .initToken fun hk => (pinIs_iff hv _ _).2 (hr (kn hk))
    | done hr => exact .initToken fun hk => (pinIs_iff hv _ _).2 (hr (kn hk))

/-! ## C07: the PINs -/

/-- After C_SetPIN or C_InitPIN has succeeded exactly the new PIN is the user's PIN, and the other user's PIN
is as before. -/
theorem C07_pins (tr : Trace) (hp : ∀ p ∈ tr, plain p.1) (e : Env) (he : plain e) (h i : Nat) (t : List Nat) (c : SCall) (u : User) (new : Bytes)
    (hs : (pinNotes M C O tr).1.slotsOf h = i :: t)
    (hc : (∃ old, c = .setPin old new ∧ u = ((pinNotes M C O tr).1.who i).getD .user) ∨ c = .initPin new ∧ u = .user)
    (hok : (step M C O e (after M C O [] tr) (.sess h c)).1 = .ok) :
    (∀ p, pinIs C (step M C O e (after M C O [] tr) (.sess h c)).2 i u p ↔ C.pinKey p = C.pinKey new) ∧
    ∀ w, w ≠ u → ∀ p, pinIs C (step M C O e (after M C O [] tr) (.sess h c)).2 i w p ↔ pinIs C (after M C O [] tr) i w p := by
  have a := agree_notes (C := C) M O tr
  have iv := pinInv_reach (C := C) M O tr i hp
  obtain ⟨K, v, π, hv, ham⟩ := iv.among
  obtain ⟨K', v', π', ini, s1, s2, s3, _, _, _⟩ := step_pins M O (.sess h c) (inv_reach (C := C) M O [] tr) a he hv
  change SlotV C (after M C O [] tr) i K v π at hv
  change SlotV C (step M C O e (after M C O [] tr) (.sess h c)).2 i K' v' π' at s1
  change PinEff C e _ i ini π (.sess h c) (step M C O e (after M C O [] tr) (.sess h c)).1 π' at s3
  rw [hok] at s3
  suffices ∃ π1, samePins π π1 ∧ π' = setU π1 u (some (new, 0)) by
    obtain ⟨π1, h1, h2⟩ := this
    rw [h2] at s1
    exact ⟨fun p => (pinIs_iff s1 u p).trans right_setU,
      fun w hw p => (pinIs_iff s1 w p).trans ((right_setU_ne h1 hw).symm.trans (pinIs_iff hv w p).symm)⟩
  have pr : ∀ old, presents (pinNotes M C O tr).1 (.sess h (.setPin old new)) =
      some (i, ((pinNotes M C O tr).1.who i).getD .user, old) := by
    intro old
    simp only [presents, hs]
  rcases hc with ⟨old, rfl, hu⟩ | ⟨rfl, hu⟩
  · cases s3 with
    | still h1 _ => exact absurd rfl (h1 _ _ (pr old)).1
    | setPin hpr _ hok _ =>
      rw [pr] at hpr
      injection hpr with hpr; injection hpr with _ hpr; injection hpr with hpr _
      obtain ⟨_, h2⟩ := hok rfl
      rw [hu, hpr]; exact h2
  · cases s3 with
    | still _ h2 => exact absurd rfl (h2 _ _ _ rfl hs)
    | initPin _ _ hok =>
      obtain ⟨_, π1, h2, _, h3⟩ := hok rfl
      rw [hu]; exact ⟨π1, h2, h3⟩

/-- Calls that leave every PIN in the notebook. -/
def keepsPins : Call → Bool
  | .sess _ (.setPin ..) | .sess _ (.initPin _) | .initToken .. => false
  | _ => true

theorem see_keepsPins {o : Obs} {b : PinBook} {c : Call} {out : Out} (h : keepsPins c = true) (i : Nat) (u : User) :
    ((b.see o (c, out)).note i u).pins = (b.note i u).pins := by
  have put : ∀ j w (n : PinNote), n.pins = (b.note j w).pins → ((b.put j w n).note i u).pins = (b.note i u).pins := by
    intro j w n hn
    rw [note_put]
    split
    · rename_i h; obtain ⟨rfl, rfl⟩ := h; exact hn
    · rfl
  unfold PinBook.see
  split
  · rename_i heq; cases heq
    split
    · exact put _ _ _ rfl
    · rfl
  · rename_i heq; cases heq
    split
    · exact put _ _ _ rfl
    · rfl
  · rename_i heq; cases heq
    split
    · exact put _ _ _ rfl
    · rfl
  · rename_i heq; cases heq; cases h
  · rename_i heq; cases heq; cases h
  · rename_i heq; cases heq; cases h
  · rename_i heq; cases heq; cases h
  · rfl

theorem pins_run (tr tr₂ : Trace) (hk : ∀ x ∈ tr₂, keepsPins x.2 = true) (i : Nat) (u : User) :
    ((pinNotes M C O (tr ++ tr₂)).2.note i u).pins = ((pinNotes M C O tr).2.note i u).pins := by
  induction tr₂ generalizing tr with
  | nil => rw [List.append_nil]
  | cons x l ih =>
    have : tr ++ x :: l = (tr ++ [x]) ++ l := by simp
    rw [this, ih _ fun y hy => hk y (List.mem_cons_of_mem _ hy), pinNotes_snoc]
    exact see_keepsPins (hk x (List.mem_cons_self ..)) i u

/-- The new PIN is what C_Login asks for: after C_SetPIN or C_InitPIN has succeeded, and until the next call
that sets PINs, a login of that user succeeds only with the new PIN, whatever faults and crashes happen. -/
theorem C07_login (tr tr₂ : Trace) (e0 e : Env) (h i : Nat) (t : List Nat) (c : SCall) (u : User) (new : Bytes)
    (hp : ∀ p ∈ tr ++ (e0, .sess h c) :: tr₂, plain p.1) (he : plain e)
    (hs : (pinNotes M C O tr).1.slotsOf h = i :: t)
    (hc : (∃ old, c = .setPin old new ∧ u = ((pinNotes M C O tr).1.who i).getD .user) ∨ c = .initPin new ∧ u = .user)
    (hok : (step M C O e0 (after M C O [] tr) (.sess h c)).1 = .ok)
    (hk : ∀ x ∈ tr₂, keepsPins x.2 = true) (h2 ut : Nat) (pin : Bytes)
    (hpr : presents (pinNotes M C O (tr ++ (e0, .sess h c) :: tr₂)).1 (.login h2 ut pin) = some (i, u, pin))
    (hl : (step M C O e (after M C O [] (tr ++ (e0, .sess h c) :: tr₂)) (.login h2 ut pin)).1 = .ok) :
    C.pinKey pin = C.pinKey new := by
  obtain ⟨i', u', hpr', q, hq, hkey⟩ := C05_right_pin _ hp e he h2 ut pin hl
  rw [hpr] at hpr'
  injection hpr' with hpr'; injection hpr' with e1 hpr'; injection hpr' with e2 _
  subst e1; subst e2
  have : tr ++ (e0, .sess h c) :: tr₂ = (tr ++ [(e0, .sess h c)]) ++ tr₂ := by simp
  rw [this, pins_run _ _ hk, pinNotes_snoc] at hq
  simp only [hok] at hq
  have : ((pinNotes M C O tr).2.see (pinNotes M C O tr).1 (.sess h c, .ok)).note i u = ⟨[new], 0⟩ := by
    rcases hc with ⟨old, rfl, hu⟩ | ⟨rfl, hu⟩
    · unfold PinBook.see
      simp only [presents, hs]
      rw [note_put, if_pos ⟨rfl, hu⟩]
    · unfold PinBook.see
      simp only [hs]
      rw [note_put, if_pos ⟨rfl, hu⟩]
  rw [this] at hq
  simp only [List.mem_singleton] at hq
  rw [hkey, hq]

/-- And the new PIN does log in, when the calls that check PINs are not disturbed and ten failures have
not locked it meanwhile. -/
theorem C07_new_pin (tr tr₂ : Trace) (e0 e : Env) (h i : Nat) (t : List Nat) (c : SCall) (u : User) (new : Bytes)
    (hcl : Clear M C O (tr ++ (e0, .sess h c) :: tr₂)) (he : quiet e)
    (hs : (pinNotes M C O tr).1.slotsOf h = i :: t)
    (hc : (∃ old, c = .setPin old new ∧ u = ((pinNotes M C O tr).1.who i).getD .user) ∨ c = .initPin new ∧ u = .user)
    (hok : (step M C O e0 (after M C O [] tr) (.sess h c)).1 = .ok)
    (hk : ∀ x ∈ tr₂, keepsPins x.2 = true) (h2 ut : Nat) (hut : ut ≠ CKU_CONTEXT_SPECIFIC)
    (hpr : presents (pinNotes M C O (tr ++ (e0, .sess h c) :: tr₂)).1 (.login h2 ut new) = some (i, u, new))
    (hkn : (pinNotes M C O (tr ++ (e0, .sess h c) :: tr₂)).2.known i = true)
    (hro : u = .so → ∀ l ∈ (pinNotes M C O (tr ++ (e0, .sess h c) :: tr₂)).1.live, l.slot = i → isRw l.flags = true)
    (hf : ((pinNotes M C O (tr ++ (e0, .sess h c) :: tr₂)).2.note i u).fails < 10) :
    (step M C O e (after M C O [] (tr ++ (e0, .sess h c) :: tr₂)) (.login h2 ut new)).1 = .ok := by
  rw [C05_answer _ hcl e he h2 ut i u new hut hpr hkn hro]
  have : tr ++ (e0, .sess h c) :: tr₂ = (tr ++ [(e0, .sess h c)]) ++ tr₂ := by simp
  have hn : ((pinNotes M C O (tr ++ (e0, .sess h c) :: tr₂)).2.note i u).pins = [new] := by
    rw [this, pins_run _ _ hk, pinNotes_snoc]
    simp only [hok]
    have : ((pinNotes M C O tr).2.see (pinNotes M C O tr).1 (.sess h c, .ok)).note i u = ⟨[new], 0⟩ := by
      rcases hc with ⟨old, rfl, hu⟩ | ⟨rfl, hu⟩
      · unfold PinBook.see
        simp only [presents, hs]
        rw [note_put, if_pos ⟨rfl, hu⟩]
      · unfold PinBook.see
        simp only [hs]
        rw [note_put, if_pos ⟨rfl, hu⟩]
    rw [this]
  unfold verdict
  rw [hn]
  simp only [if_neg (Nat.not_le.2 hf), if_true]

/-! ## C09 -/

theorem init_answer (r : Rv) (x : St) : (match (.error r : Res Unit) with
      | .ok () => (Out.ok, x)
      | .error .pinLocked => (.err .pinLocked, x)
      | .error .pinIncorrect => (.err .pinIncorrect, x)
      | .error .pinInvalid => (.err .pinInvalid, x)
      | .error .pinExpired => (.err .pinExpired, x)
      | .error _ => (.err .generalError, x)).1 ≠ .ok ∧ (¬ refusedPin r → (match (.error r : Res Unit) with
      | .ok () => (Out.ok, x)
      | .error .pinLocked => (.err .pinLocked, x)
      | .error .pinIncorrect => (.err .pinIncorrect, x)
      | .error .pinInvalid => (.err .pinInvalid, x)
      | .error .pinExpired => (.err .pinExpired, x)
      | .error _ => (.err .generalError, x)) = (.err .generalError, x)) := by
  unfold refusedPin
  split <;> simp_all

/-- C_InitToken erases everything or nothing, whatever faults happen inside: after success there is no
object and no user PIN and the SO has the PIN presented; a refused PIN leaves objects and PINs; any other
error leaves them all, or leaves no object and no user PIN. -/
theorem C09_all_or_nothing (tr : Trace) (hp : ∀ p ∈ tr, plain p.1) (e : Env) (he : plain e) (i : Nat) (pin : Bytes) (l : Option Bytes) :
    let s := after M C O [] tr
    let x := step M C O e s (.initToken i pin l)
    let same := (dbAt x.2 i).objs = (dbAt s i).objs ∧ ∀ u p, pinIs C x.2 i u p ↔ pinIs C s i u p
    (x.1 = .ok → (dbAt x.2 i).objs = [] ∧ noPin x.2 i .user ∧ ∀ p, pinIs C x.2 i .so p ↔ C.pinKey p = C.pinKey pin) ∧
    (x.1 ≠ .ok → x.1 ≠ .err .generalError → same) ∧
    (x.1 = .err .generalError → same ∨ ((dbAt x.2 i).objs = [] ∧ noPin x.2 i .user)) := by
  intro s x same
  have iv := pinInv_reach (C := C) M O tr i hp
  obtain ⟨K, v, π, hv, ham⟩ := iv.among
  change SlotV C s i K v π at hv
  have nothing : ∀ r : Rv, x = (.err r, s) → r ≠ .generalError →
      (x.1 = .ok → (dbAt x.2 i).objs = [] ∧ noPin x.2 i .user ∧ ∀ p, pinIs C x.2 i .so p ↔ C.pinKey p = C.pinKey pin) ∧
      (x.1 ≠ .ok → x.1 ≠ .err .generalError → same) ∧
      (x.1 = .err .generalError → same ∨ ((dbAt x.2 i).objs = [] ∧ noPin x.2 i .user)) := by
    intro r hx hr
    have hs : same := by
      simp only [same, hx]
      exact ⟨trivial, fun _ _ => trivial⟩
    refine ⟨fun h => ?_, fun _ _ => hs, fun _ => .inl hs⟩
    rw [hx] at h; cases h
  have hx : x = fnInitToken C e s i pin l := rfl
  unfold fnInitToken at hx
  split at hx
  · rename_i r hg
    unfold St.getSlot at hg
    repeat' split at hg
    · injection hg with hg; subst hg; exact nothing _ hx (by decide)
    · cases hg
    · injection hg with hg; subst hg; exact nothing _ hx (by decide)
  · rename_i sl hg
    obtain ⟨hr, hj⟩ := getSlot_ok hg
    split at hx
    · exact nothing _ hx (by decide)
    · extract_lets lab at hx
      clear_value lab
      have tv := hv.2 sl hj
      have b := token_initToken (e := e) (pin := pin) (label := lab) tv he
      generalize sl.token.initToken C e pin lab = p at b hx
      obtain ⟨r, t⟩ := p
      have hst : x.2 = s.setSlot i ⟨t, sl.sessions⟩ := by
        rw [hx]
        simp only
        split <;> rfl
      have hg' : AMap.get x.2.slots i = some ⟨t, sl.sessions⟩ := by
        rw [hst]; exact (get_setSlot hj).trans (if_pos rfl)
      have same_of : ∀ π', TVault C t K v π' → samePins π π' → Rest sl.token t → same := by
        intro π' h hs rest
        refine ⟨?_, fun u p => ?_⟩
        · rw [dbAt_some hg', dbAt_some hj]; exact rest.objs
        · rw [pinIs_iff (slotV_some hg' h), pinIs_iff hv]; exact (right_same hs u p).symm
      have err_of : ∀ r, x = (match (.error r : Res Unit) with
            | .ok () => (Out.ok, s.setSlot i ⟨t, sl.sessions⟩)
            | .error .pinLocked => (.err .pinLocked, s.setSlot i ⟨t, sl.sessions⟩)
            | .error .pinIncorrect => (.err .pinIncorrect, s.setSlot i ⟨t, sl.sessions⟩)
            | .error .pinInvalid => (.err .pinInvalid, s.setSlot i ⟨t, sl.sessions⟩)
            | .error .pinExpired => (.err .pinExpired, s.setSlot i ⟨t, sl.sessions⟩)
            | .error _ => (.err .generalError, s.setSlot i ⟨t, sl.sessions⟩)) → x.1 ≠ .ok := by
        intro r h h1
        rw [h] at h1
        exact (init_answer r _).1 h1
      cases b with
      | refused r _ π' hi h hs hq rest hl hi' =>
        have := same_of π' h hs rest
        exact ⟨fun h => absurd h (err_of r hx), fun _ _ => this, fun _ => .inl this⟩
      | kept r _ π' hr h hs rest hpr hq hl =>
        have := same_of π' h hs rest
        exact ⟨fun h => absurd h (err_of r hx), fun _ _ => this, fun _ => .inl this⟩
      | wiped r _ K' v' π' hr h hπ ho hpr hl =>
        have hge : x.1 = .err .generalError := by
          have := (init_answer r (s.setSlot i ⟨t, sl.sessions⟩)).2 (hpr he)
          rw [hx]
          exact congrArg Prod.fst this
        refine ⟨fun h => absurd h (err_of r hx), fun _ h => absurd hge h, fun _ => .inr ⟨?_, ?_⟩⟩
        · rw [dbAt_some hg']; exact ho
        · rw [noPin_iff (slotV_some hg' h)]
          rcases hπ with rfl | rfl | rfl <;> rfl
      | done _ K' v' hr h ho hi hf hl =>
        refine ⟨fun _ => ⟨?_, ?_, fun p => ?_⟩, fun h => absurd (by rw [hx]) h, fun h => ?_⟩
        · rw [dbAt_some hg']; exact ho
        · rw [noPin_iff (slotV_some hg' h)]; rfl
        · rw [pinIs_iff (slotV_some hg' h)]; exact right_setU
        · rw [hx] at h; cases h

/-! ### Concrete cases -/

/-- A token with an object, a user PIN and the SO about to change it. -/
def exChange : Trace := exStart ++ [(exEnv 7, .login 1 CKU_USER exPin)]

set_option maxRecDepth 20000 in
/-- The hypotheses of `C07_pins`, `C07_login` and `C07_new_pin` are met: the user changes the PIN, the process
dies, and the new PIN logs in while the old one does not. -/
example : (pinNotes exMechs exCrypto exOracle exChange).1.slotsOf 1 = [7] ∧
    (pinNotes exMechs exCrypto exOracle exChange).1.who 7 = some .user ∧
    (exOuts (exChange ++ [(exEnv 8, .sess 1 (.setPin exPin [51])), (exEnv 9, .crash), (exEnv 10, .initialize exConf),
      (exEnv 11, .openSession 7 6), (exEnv 12, .login 1 CKU_USER exPin), (exEnv 13, .login 1 CKU_USER [51])])).drop 7 =
    [.ok, .ok, .ok, .handle 1, .err .pinIncorrect, .ok] := by decide +kernel

/-- `C08_authorised` is not vacuous: the PIN does change in the example. -/
def opensB (s : St) (p : Bytes) : Bool :=
  match AMap.get (dbAt s 7).metaT (.userData .user) with
  | some b => match decryptKey exCrypto quietEnv User.user.id p b with
    | .ok _ => true
    | .error _ => false
  | none => false

theorem opensB_iff (s : St) (p : Bytes) : pinIs exCrypto s 7 .user p ↔ opensB s p = true := by
  unfold pinIs opensB
  constructor
  · rintro ⟨b, k, h1, h2⟩; rw [h1]; simp only; rw [h2]
  · intro h
    split at h
    · rename_i b hb
      split at h
      · rename_i k hk; exact ⟨b, k, hb, hk⟩
      · cases h
    · cases h

set_option maxRecDepth 20000 in
example : ¬ (pinIs exCrypto (step exMechs exCrypto exOracle (exEnv 8) (after exMechs exCrypto exOracle [] exChange)
      (.sess 1 (.setPin exPin [51]))).2 7 .user [51] ↔ pinIs exCrypto (after exMechs exCrypto exOracle [] exChange) 7 .user [51]) := by
  rw [opensB_iff, opensB_iff]
  decide +kernel

set_option maxRecDepth 20000 in
/-- C_InitToken of a token in use, met by a disk that fails when the SO's record is written: the answer is
CKR_GENERAL_ERROR, and everything is gone. -/
example : (step exMechs exCrypto exOracle (exFail 8 [1, 2]) (after exMechs exCrypto exOracle [] (exChange ++ [(exEnv 7, .closeAll 7)]))
      (.initToken 7 exSoPin none)).1 = .err .generalError := by decide +kernel

/-- The last part of the claim fails.  C_InitToken empties the database in one transaction and writes the
SO's record in the next (`src/storage/format.rs`, `reinit`).  If it stops between the two the token is neither
the old one nor can it be initialised: the running process answers CKR_GENERAL_ERROR again, and after a
restart C_Initialize itself fails. -/
def exTorn : Trace := exChange ++ [(exEnv 8, .closeAll 7), (exFail 9 [1, 2], .initToken 7 exSoPin none)]

set_option maxRecDepth 20000 in
theorem C09_crash_violation :
    (exOuts (exTorn ++ [(exEnv 10, .initToken 7 exSoPin none)])).drop 8 = [.err .generalError, .err .generalError] ∧
    (exOuts (exTorn ++ [(exEnv 10, .crash), (exEnv 11, .initialize exConf), (exEnv 12, .initToken 7 exSoPin none)])).drop 8 =
      [.err .generalError, .ok, .err .userPinNotInitialized, .err .slotIdInvalid] := by decide +kernel

end Kry
