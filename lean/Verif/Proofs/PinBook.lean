import Verif.Proofs.VaultStep

/-! # The PIN notebook agrees with the machine -/

namespace Kry
open Spec

variable {C : Crypto}

/-- What the notebook expects in the database. -/
def PinNote.entry (n : PinNote) : Option (Bytes × Nat) :=
  match n.pins with
  | [] => none
  | p :: _ => some (p, n.fails)

theorem note_put (b : PinBook) (i j : Nat) (u w : User) (n : PinNote) :
    (b.put i u n).note j w = if j = i ∧ w = u then n else b.note j w := rfl

/-- Nothing about slot `i` is written. -/
theorem see_still {o : Obs} {b : PinBook} {i : Nat} {c : Call} {out : Out}
    (h1 : ∀ u pin, presents o c = some (i, u, pin) → out ≠ .ok ∧ out ≠ .err .pinIncorrect ∧ out ≠ .err .pinLocked ∧
      (∀ p l, c = .initToken i p l → out ≠ .err .generalError))
    (h2 : ∀ h pin t, c = .sess h (.initPin pin) → o.slotsOf h = i :: t → out ≠ .ok) :
    (∀ u, (b.see o (c, out)).note i u = b.note i u) ∧ (b.see o (c, out)).known i = b.known i := by
  have put : ∀ {j : Nat} {w : User} {n : PinNote}, j ≠ i → (∀ u, (b.put j w n).note i u = b.note i u) ∧ (b.put j w n).known i = b.known i :=
    fun hne => ⟨fun u => by rw [note_put, if_neg (fun h => hne h.1.symm)], rfl⟩
  have hne : ∀ {j u pin}, presents o c = some (j, u, pin) → (out = .ok ∨ out = .err .pinIncorrect ∨ out = .err .pinLocked) → j ≠ i := by
    intro j u pin hp ho e
    subst e
    obtain ⟨a1, a2, a3, _⟩ := h1 _ _ hp
    rcases ho with h | h | h
    · exact a1 h
    · exact a2 h
    · exact a3 h
  unfold PinBook.see
  split
  · rename_i heq; cases heq
    split
    · rename_i hp; exact put (hne hp (.inr (.inl rfl)))
    · exact ⟨fun _ => rfl, rfl⟩
  · rename_i heq; cases heq
    split
    · rename_i hp; exact put (hne hp (.inr (.inr rfl)))
    · exact ⟨fun _ => rfl, rfl⟩
  · rename_i heq; cases heq
    split
    · rename_i hp; exact put (hne hp (.inl rfl))
    · exact ⟨fun _ => rfl, rfl⟩
  · rename_i heq; cases heq
    split
    · rename_i hp; exact put (hne hp (.inl rfl))
    · exact ⟨fun _ => rfl, rfl⟩
  · rename_i heq; cases heq
    split
    · exact ⟨fun _ => rfl, rfl⟩
    · rename_i hs
      refine put fun e => ?_
      subst e
      exact h2 _ _ _ rfl hs rfl
  · rename_i j pin l heq; cases heq
    have : j ≠ i := hne (u := .so) (pin := pin) rfl (.inl rfl)
    have h : i ≠ j := Ne.symm this
    exact ⟨fun u => by simp [note_put, h], by simp [setAt, h, PinBook.put]⟩
  · rename_i j pin l heq; cases heq
    have : j ≠ i := by
      intro e
      subst e
      exact (h1 _ _ rfl).2.2.2 _ _ rfl rfl
    have h : i ≠ j := Ne.symm this
    exact ⟨fun u => by simp [note_put, h], by simp [setAt, h, PinBook.put]⟩
  · exact ⟨fun _ => rfl, rfl⟩

/-- Failed or successful attempts change no PIN in the notebook. -/
theorem see_known {o : Obs} {b : PinBook} {i : Nat} {c : Call} {out : Out} (h : ∀ p l, c ≠ .initToken i p l) :
    (b.see o (c, out)).known i = b.known i := by
  unfold PinBook.see
  split
  any_goals (first | rfl | (split <;> rfl))
  all_goals
    rename_i j pin l heq
    cases heq
    have : i ≠ j := fun e => h pin l (by rw [e])
    simp [setAt, this, PinBook.put]

theorem see_known_init {o : Obs} {b : PinBook} {i : Nat} {out : Out} {p : Bytes} {l : Option Bytes} (ho : out ≠ .ok)
    (hg : out ≠ .err .generalError) : (b.see o (.initToken i p l, out)).known i = b.known i := by
  unfold PinBook.see
  split
  any_goals (first | rfl | (split <;> rfl))
  · rename_i heq; injection heq with _ heq; exact absurd heq ho
  · rename_i heq; injection heq with _ heq; exact absurd heq hg

/-! ## With faults -/

/-- The PIN of each user is among those of the notebook. -/
def Among (C : Crypto) (b : PinBook) (i : Nat) (π : Pins) : Prop :=
  ∀ u p n, π u = some (p, n) → ∃ q ∈ (b.note i u).pins, C.pinKey q = C.pinKey p

structure PinInv (C : Crypto) (s : St) (b : PinBook) (i : Nat) : Prop where
  among : ∃ K v π, SlotV C s i K v π ∧ Among C b i π
  known : b.known i = true → KnownAt s i

theorem Among.same {b b' : PinBook} {i : Nat} {π π' : Pins} (h : Among C b i π) (hs : samePins π π')
    (hb : ∀ u, ∀ q ∈ (b.note i u).pins, q ∈ (b'.note i u).pins) : Among C b' i π' := by
  intro u p n hp
  have := hs u
  rw [hp] at this
  cases hq : π u with
  | none => rw [hq] at this; cases this
  | some x =>
    obtain ⟨p', n'⟩ := x
    rw [hq] at this
    injection this with this
    have this : p = p' := this
    subst this
    obtain ⟨q, h1, h2⟩ := h u p n' hq
    exact ⟨q, hb u q h1, h2⟩

theorem Among.right {b : PinBook} {i : Nat} {π : Pins} (h : Among C b i π) {u : User} {pin : Bytes} (hr : Right C π u pin) :
    ∃ q ∈ (b.note i u).pins, C.pinKey pin = C.pinKey q := by
  obtain ⟨p, n, h1, h2⟩ := hr
  obtain ⟨q, h3, h4⟩ := h u p n h1
  exact ⟨q, h3, h2.trans h4.symm⟩

theorem see_login_pins {o : Obs} {b : PinBook} {i : Nat} {u : User} {h ut : Nat} {pin : Bytes} {out : Out}
    (hp : presents o (.login h ut pin) = some (i, u, pin)) (w : User) :
    ((b.see o (.login h ut pin, out)).note i w).pins = (b.note i w).pins := by
  have e : ∀ n : PinNote, n.pins = (b.note i u).pins → ((b.put i u n).note i w).pins = (b.note i w).pins := by
    intro n hn
    rw [note_put]
    by_cases hw : w = u
    · subst hw; simp [hn]
    · simp [hw]
  cases out with
  | ok => simp only [PinBook.see, hp]; exact e _ rfl
  | err r =>
    by_cases h1 : r = .pinIncorrect
    · subst h1; simp only [PinBook.see, hp]; exact e _ rfl
    · by_cases h2 : r = .pinLocked
      · subst h2; simp only [PinBook.see, hp]; exact e _ rfl
      · have : b.see o (.login h ut pin, .err r) = b := by
          unfold PinBook.see
          split <;> simp_all
        rw [this]
  | _ => rfl

theorem see_sess_pins {o : Obs} {b : PinBook} {i : Nat} {h : Nat} {c : SCall} {out : Out} (ho : out ≠ .ok)
    (w : User) : ((b.see o (.sess h c, out)).note i w).pins = (b.note i w).pins := by
  have e : ∀ j u, ((b.put j u (b.note j u).miss).note i w).pins = (b.note i w).pins := by
    intro j u
    rw [note_put]
    split
    · rename_i hh; rw [hh.1, hh.2]; rfl
    · rfl
  unfold PinBook.see
  split
  all_goals first
    | rfl
    | (rename_i heq; injection heq with _ heq; exact absurd heq ho)
    | (split
       · exact e _ _
       · rfl)
    | (rename_i heq; cases heq)

/-- One step. -/
theorem pinInv_step (M : Mechs) (O : Oracle) {e : Env} {o : Obs} {s : St} {b : PinBook} {i : Nat} {c : Call} (hi : Inv s)
    (a : Kry.Agree s o) (hp : plain e) (h : PinInv C s b i) :
    PinInv C (step M C O e s c).2 (b.see o (c, (step M C O e s c).1)) i := by
  obtain ⟨K, v, π, hv, ham⟩ := h.among
  obtain ⟨K', v', π', ini, s1, s2, s3, s4, s5, _⟩ := step_pins M O c hi a hp hv
  have kn := h.known
  generalize step M C O e s c = x at *
  obtain ⟨out, s'⟩ := x
  simp only at *
  refine ⟨⟨K', v', π', s1, ?_⟩, ?_⟩
  · cases s3 with
    | still h1 h2 =>
      have := see_still (b := b) h1 h2
      exact ham.same (.refl _) fun u q hq => by rw [this.1]; exact hq
    | login hpr hs hr hq => exact ham.same hs fun w q hq => by rw [see_login_pins hpr]; exact hq
    | @setPin h u old new _ _ hpr hn hok hq =>
      by_cases ho : out = .ok
      · subst ho
        obtain ⟨hr, π1, h1, rfl⟩ := hok rfl
        simp only [PinBook.see, hpr]
        intro w p n hw
        rw [note_put]
        unfold setU at hw
        split at hw
        · rename_i e
          injection hw with hw; injection hw with hw; subst hw
          exact ⟨new, by simp [e], rfl⟩
        · rename_i e
          simp only [e, and_false, if_false]
          exact ham.same h1 (fun _ _ h => h) w p n hw
      · exact ham.same (hn ho) fun w q hq => by rw [see_sess_pins ho]; exact hq
    | @initPin h pin t _ _ hs hn hok =>
      by_cases ho : out = .ok
      · subst ho
        obtain ⟨hr, π1, h1, _, rfl⟩ := hok rfl
        simp only [PinBook.see, hs]
        intro w p n hw
        rw [note_put]
        unfold setU at hw
        split at hw
        · rename_i e
          injection hw with hw; injection hw with hw; subst hw
          exact ⟨pin, by simp [e], rfl⟩
        · rename_i e
          simp only [e, and_false, if_false]
          exact ham.same h1 (fun _ _ h => h) w p n hw
      · exact ham.same (hn ho).1 fun w q hq => by rw [see_sess_pins ho]; exact hq
    | @initToken pin l _ _ h =>
      have hge : ∀ w q, q ∈ (b.note i w).pins → q ∈ ((b.see o (.initToken i pin l, .err .generalError)).note i w).pins := by
        intro w q hq
        simp only [PinBook.see, note_put]
        split
        · rename_i e
          rw [e.2] at hq
          simp only
          split
          · exact List.mem_cons_of_mem _ hq
          · exact List.mem_cons_of_mem _ (List.mem_cons_of_mem _ hq)
        · exact hq
      cases h with
      | refused hi ho hs hq =>
        refine ham.same hs fun w q hm => ?_
        by_cases hg : out = .err .generalError
        · subst hg; exact hge w q hm
        · have : ((b.see o (.initToken i pin l, out)).note i w).pins = (b.note i w).pins := by
            have e : ((b.put i .so (b.note i .so).miss).note i w).pins = (b.note i w).pins := by
              rw [note_put]
              split
              · rename_i hh; rw [hh.2]; rfl
              · rfl
            cases out with
            | ok => exact absurd rfl ho
            | err r =>
              by_cases h1 : r = .pinIncorrect
              · subst h1; exact e
              · by_cases h2 : r = .pinLocked
                · subst h2; exact e
                · have : b.see o (.initToken i pin l, .err r) = b := by
                    unfold PinBook.see
                    split <;> simp_all
                  rw [this]
            | _ => rfl
          rw [this]; exact hm
      | kept hr hs => exact ham.same hs hge
      | wiped hr hπ =>
        rcases hπ with rfl | rfl | rfl
        · intro w p n hw; cases hw
        · intro w p n hw
          unfold onlySo setU at hw
          split at hw
          · rename_i e
            subst e
            injection hw with hw; injection hw with hw; subst hw
            exact ⟨[], by simp [PinBook.see, note_put], rfl⟩
          · cases hw
        · intro w p n hw
          unfold onlySo setU at hw
          split at hw
          · rename_i e
            subst e
            injection hw with hw; injection hw with hw; subst hw
            by_cases hk : b.known i = true
            · obtain ⟨q, q1, q2⟩ := ham.right (hr (s2 (kn hk)))
              exact ⟨q, hge _ _ q1, q2.symm⟩
            · exact ⟨_, by simp [PinBook.see, note_put, hk], rfl⟩
          · cases hw
      | done hr =>
        intro w p n hw
        unfold onlySo setU at hw
        split at hw
        · rename_i e
          subst e
          injection hw with hw; injection hw with hw; subst hw
          exact ⟨_, by simp [PinBook.see, note_put], rfl⟩
        · cases hw
  · intro hk
    by_cases hc : ∃ p l, c = .initToken i p l
    · obtain ⟨p, l, rfl⟩ := hc
      by_cases ho : out = .ok
      · exact s5 p l rfl ho
      · by_cases hg : out = .err .generalError
        · subst hg
          simp [PinBook.see, setAt] at hk
        · have : (b.see o (.initToken i p l, out)).known i = b.known i := by
            exact see_known_init ho hg
          rw [this] at hk
          rcases s4 (kn hk) with h | ⟨_, _, _, h⟩
          · exact h
          · exact absurd h hg
    · have := see_known (o := o) (b := b) (out := out) fun p l h => hc ⟨p, l, h⟩
      rw [this] at hk
      rcases s4 (kn hk) with h | ⟨_, _, h, _⟩
      · exact h
      · exact absurd ⟨_, _, h⟩ hc

/-! ## Undisturbed -/

structure PinExact (C : Crypto) (s : St) (o : Obs) (b : PinBook) (i : Nat) : Prop where
  exact : ∃ K v, SlotV C s i K v fun u => PinNote.entry (b.note i u)
  known : b.known i = true → KnownAt s i
  fresh : o.stale i = false

theorem entry_le {s : St} {K : Bytes} {v i : Nat} {π : Pins} (h : SlotV C s i K v π) {u : User} {p : Bytes} {n : Nat}
    (hu : π u = some (p, n)) : n ≤ 10 := (h.1.present u p n hu).1

/-- The notebook after an attempt. -/
theorem entry_attempt {π : Pins} {b b' : PinBook} {i : Nat} {u : User} {pin : Bytes} {r : Res Unit} {π' : Pins}
    (hπ : ∀ w, π w = PinNote.entry (b.note i w)) (hle : ∀ p n, π u = some (p, n) → n ≤ 10)
    (ha : (r, π') = authP C π u pin)
    (hok : r = .ok () → b' = b.put i u { b.note i u with fails := 0 })
    (hbad : r = .error .pinIncorrect ∨ r = .error .pinLocked → b' = b.put i u (b.note i u).miss)
    (hno : r = .error .userPinNotInitialized → ∀ w, b'.note i w = b.note i w) :
    ∀ w, π' w = PinNote.entry (b'.note i w) := by
  have hu := hπ u
  have key : ∀ (n : PinNote) (y : Option (Bytes × Nat)), PinNote.entry n = y → ∀ w, setU π u y w = PinNote.entry ((b.put i u n).note i w) := by
    intro n y hn w
    unfold setU
    rw [note_put]
    by_cases e : w = u
    · subst e; simp [hn]
    · simp [e, hπ w]
  unfold PinNote.entry at hu
  unfold authP at ha
  cases hp : (b.note i u).pins with
  | nil =>
    rw [hp] at hu
    simp only at hu
    rw [hu] at ha
    injection ha with h1 h2
    intro w
    rw [hno h1 w, h2]; exact hπ w
  | cons p ps =>
    rw [hp] at hu
    simp only at hu
    rw [hu] at ha
    have hl := hle _ _ hu
    simp only at ha
    split at ha
    · rename_i h10
      injection ha with h1 h2
      intro w
      rw [hbad (.inr h1), h2]
      have : setU π u (some (p, (b.note i u).fails)) = π := by
        funext w; unfold setU; split
        · rename_i e; rw [e, hu]
        · rfl
      rw [← this]
      refine key _ _ ?_ w
      simp only [PinNote.entry, PinNote.miss, hp]
      congr 2
      omega
    · rename_i h10
      split at ha
      · injection ha with h1 h2
        subst h2
        rw [hok h1]
        exact key _ _ (by simp [PinNote.entry, hp])
      · injection ha with h1 h2
        subst h2
        rw [hbad (by rw [h1]; split <;> simp)]
        refine key _ _ ?_
        simp only [PinNote.entry, PinNote.miss, hp]
        congr 2
        omega

theorem see_out {o : Obs} {b : PinBook} {c : Call} {i : Nat} {u : User} {pin : Bytes} {r : Rv}
    (hp : presents o c = some (i, u, pin)) (h : r = .pinIncorrect ∨ r = .pinLocked) :
    b.see o (c, .err r) = b.put i u (b.note i u).miss := by
  rcases h with rfl | rfl <;> simp only [PinBook.see, hp]

theorem see_err {o : Obs} {b : PinBook} {c : Call} {r : Rv} (h1 : r ≠ .pinIncorrect) (h2 : r ≠ .pinLocked) (h3 : r ≠ .generalError) :
    b.see o (c, .err r) = b := by
  unfold PinBook.see
  split <;> simp_all

theorem stale_see {o : Obs} {ev : Event} {i : Nat} (hs : smooth ev) (h : o.stale i = false) : (o.see ev).stale i = false := by
  have sw : ∀ h' u, (o.setWho h' u false).stale i = false := by
    intro h' u
    unfold Obs.setWho
    split
    · exact h
    · simp only [setAt]
      split
      · rfl
      · exact h
  unfold Obs.see
  split
  · exact h
  · simp only
    split
    · rfl
    · exact h
  · simp only [setAt]
    split
    · rfl
    · exact h
  · rfl
  · rfl
  · split
    · exact sw _ _
    · split
      · exact sw _ _
      · exact h
  · split
    · exact sw _ _
    · exact h
  · exact sw _ _
  · exact hs.elim
  · exact h

theorem out_of_inj {r : Res Unit} {out : Out} (h : out = Out.of r) : (∃ u, r = .ok u ∧ out = .ok) ∨ ∃ x, r = .error x ∧ out = .err x := by
  cases r with
  | ok u => exact .inl ⟨u, rfl, h⟩
  | error x => exact .inr ⟨x, rfl, h⟩

theorem attempt_book {o : Obs} {b : PinBook} {c : Call} {i : Nat} {u : User} {pin : Bytes} {r : Rv} {π π' : Pins}
    (hπ : ∀ w, π w = PinNote.entry (b.note i w)) (hle : ∀ p n, π u = some (p, n) → n ≤ 10)
    (hp : presents o c = some (i, u, pin)) (ha : (.error r, π') = authP C π u pin) :
    ∀ w, π' w = PinNote.entry ((b.see o (c, .err r)).note i w) := by
  refine entry_attempt hπ hle ha nofun (fun h => see_out hp (by simpa using h)) fun h w => ?_
  injection h with h
  subst h
  rw [see_err (by decide) (by decide) (by decide)]

theorem pinExact_step (M : Mechs) (O : Oracle) {e : Env} {o : Obs} {s : St} {b : PinBook} {i : Nat} {c : Call} (hi : Inv s)
    (a : Kry.Agree s o) (hp : plain e) (hq : pinCall c = true → quiet e) (hsm : smooth (c, (step M C O e s c).1))
    (h : PinExact C s o b i) :
    PinExact C (step M C O e s c).2 (o.see (c, (step M C O e s c).1)) (b.see o (c, (step M C O e s c).1)) i := by
  obtain ⟨K, v, hv⟩ := h.exact
  obtain ⟨K', v', π', ini, s1, s2, s3, s4, s5, _⟩ := step_pins M O c hi a hp hv
  have kn := h.known
  have hst := h.fresh
  generalize step M C O e s c = x at *
  obtain ⟨out, s'⟩ := x
  simp only at *
  have hle : ∀ u p n, PinNote.entry (b.note i u) = some (p, n) → n ≤ 10 := fun u p n hu => entry_le hv hu
  suffices hx : ∀ w, π' w = PinNote.entry ((b.see o (c, out)).note i w) by
    refine ⟨⟨K', v', ?_⟩, ?_, stale_see hsm hst⟩
    · have : (fun u => PinNote.entry ((b.see o (c, out)).note i u)) = π' := (funext hx).symm
      rw [this]; exact s1
    · intro hk
      by_cases hc : ∃ p l, c = .initToken i p l
      · obtain ⟨p, l, rfl⟩ := hc
        by_cases ho : out = .ok
        · exact s5 p l rfl ho
        · have : (b.see o (.initToken i p l, out)).known i = b.known i := by
            have hg : out ≠ .err .generalError := by rintro rfl; exact hsm
            exact see_known_init ho hg
          rw [this] at hk
          rcases s4 (kn hk) with h | ⟨_, _, _, h⟩
          · exact h
          · subst h; exact hsm.elim
      · have := see_known (o := o) (b := b) (out := out) fun p l h => hc ⟨p, l, h⟩
        rw [this] at hk
        rcases s4 (kn hk) with h | ⟨_, _, h, _⟩
        · exact h
        · exact absurd ⟨_, _, h⟩ hc
  cases s3 with
  | still h1 h2 => intro w; rw [(see_still (b := b) h1 h2).1]
  | @login _ _ u pin _ _ hpr hs hr hq' =>
    obtain ⟨r, h1, h2⟩ := hq' (hq rfl) hst
    rcases out_of_inj h1 with ⟨_, rfl, rfl⟩ | ⟨x, rfl, rfl⟩
    · exact entry_attempt (fun _ => rfl) (hle _) h2 (fun _ => by simp only [PinBook.see, hpr]) (by rintro (h | h) <;> cases h) nofun
    · exact attempt_book (fun _ => rfl) (hle _) hpr h2
  | @setPin h u old new _ _ hpr hn hok hq' =>
    rcases hq' (hq rfl) with ⟨r, h1, h2⟩ | ⟨r, rfl, n1, n2, rfl⟩
    · rcases out_of_inj h1 with ⟨_, rfl, rfl⟩ | ⟨x, rfl, rfl⟩
      · intro w
        simp only [PinBook.see, hpr, note_put]
        unfold setPinP at h2
        have fin : ∀ π1 : Pins, (∀ w, w ≠ u → π1 w = PinNote.entry (b.note i w)) →
            setU π1 u (some (new, 0)) w = PinNote.entry (if True ∧ w = u then ⟨[new], 0⟩ else b.note i w) := by
          intro π1 hw
          unfold setU
          by_cases e : w = u
          · subst e; simp [PinNote.entry]
          · simp [e, hw w e]
        split at h2
        · split at h2
          · injection h2 with h2; cases h2
          · rename_i π1 hA
            injection h2 with _ h2
            subst h2
            obtain ⟨p, n, _, _, _, rfl⟩ := authP_ok hA.symm
            refine fin _ fun w hw => ?_
            unfold setU
            rw [if_neg hw]
        · injection h2 with _ h2
          subst h2
          exact fin _ fun _ _ => rfl
      · unfold setPinP at h2
        split at h2
        · split at h2
          · rename_i r π1 hA
            injection h2 with h2 h3
            injection h2 with h2
            subst h2; subst h3
            exact attempt_book (fun _ => rfl) (hle _) hpr hA.symm
          · injection h2 with h2; cases h2
        · injection h2 with h2; cases h2
    · intro w
      by_cases hg : r = .generalError
      · subst hg; rfl
      · rw [see_err n1 n2 hg]
  | @initPin h pin t _ _ hs hn hok =>
    have q := hq rfl
    by_cases ho : out = .ok
    · subst ho
      obtain ⟨hr, π1, h1, h3, rfl⟩ := hok rfl
      rw [h3 q]
      intro w
      simp only [PinBook.see, hs, note_put]
      unfold setU
      by_cases e : w = .user
      · subst e; simp [PinNote.entry]
      · simp [e]
    · obtain ⟨_, h2⟩ := hn ho
      rw [h2 q]
      intro w
      have : b.see o (.sess h (.initPin pin), out) = b := by
        unfold PinBook.see
        split
        all_goals first
          | rfl
          | (rename_i heq; injection heq with _ heq; exact absurd heq ho)
          | (rename_i heq; cases heq; done)
          | (rename_i heq; cases heq; rfl)
      rw [this]
  | @initToken pin l _ _ hI =>
    cases hI with
    | refused hi' ho hs hq' =>
      obtain ⟨r, h1, h2⟩ := hq' (hq rfl)
      by_cases hr : r = .pinLocked ∨ r = .pinIncorrect
      · rw [if_pos hr] at h2
        subst h2
        exact attempt_book (u := .so) (fun _ => rfl) (hle _) rfl h1
      · rw [if_neg hr] at h2
        subst h2
        exact hsm.elim
    | kept hr hs => exact hsm.elim
    | wiped hr hπ => exact hsm.elim
    | done hr =>
      intro w
      simp only [PinBook.see, note_put]
      cases w <;> simp [onlySo, setU, noPins, PinNote.entry]

end Kry
