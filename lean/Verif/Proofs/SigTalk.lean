import Verif.Props.C88

/-!
# A signature operation as its user sees it

For operations that take any number of parts, or none, and come to a result at the end.
-/

namespace Kry

open Spec

/-- It takes data, or it has ended. -/
inductive Feeding where
  | taking (d : Bytes) (used : Bool)
  | ended

/-- A call; `parts`: data may come in parts; `stop`: otherwise a part ends the operation; `said`: the answer for a message. -/
def sigTalk (k : OpKind) (len : Nat) (parts stop : Bool) (said : Bytes → OpIn → Out) (s : Feeding) (a : Act) (b : OpIn) : Out × Feeding :=
  if soloCall a then match s with
    | .ended => (.err .operationNotInitialized, .ended)
    | .taking d used =>
      if a = .update then if parts then (.ok, .taking (d ++ b.data) true) else (.err .operationNotInitialized, if stop then .ended else s)
      else match macGate k len b with
        | some r => (r, s)
        | none => if a = .oneShot then if used then (.err .operationNotInitialized, s) else (said b.data b, .ended)
          else if used then (said d b, .ended) else (.err .operationNotInitialized, s)
  else (.err .functionNotSupported, s)

/-- A call that has to come to a result: all data in one call without parts before, or the end after a part. -/
def Spec.comesToEnd (Y : List ((Act × OpIn) × Out)) (a : Act) : Prop :=
  notDone Y ∧ ((a = .oneShot ∧ ¬ somePart Y) ∨ (a = .final ∧ acceptedPart Y))

/-- The same for operations that go on after a part that was refused. -/
def Spec.comesToEndStill (Y : List ((Act × OpIn) × Out)) (a : Act) : Prop :=
  notDone Y ∧ ((a = .oneShot ∧ ¬ acceptedPart Y) ∨ (a = .final ∧ acceptedPart Y))

section
variable {k : OpKind} {len : Nat} {parts stop : Bool} {said : Bytes → OpIn → Out}

theorem sigTalk_other (hsaid : ∀ d b, ¬ goesOn (said d b)) (d : Bytes) (u : Bool) {a : Act} (b : OpIn) (hu : a ≠ .update) :
    (sigTalk k len parts stop said (.taking d u) a b).2 = .taking d u ∨
    ((sigTalk k len parts stop said (.taking d u) a b).2 = .ended ∧ ¬ goesOn (sigTalk k len parts stop said (.taking d u) a b).1) := by
  unfold sigTalk
  by_cases hc : soloCall a
  case neg => rw [if_neg hc]; exact .inl rfl
  rw [if_pos hc]
  simp only
  rw [if_neg hu]
  cases hg : macGate k len b with
  | some r => exact .inl rfl
  | none =>
    simp only
    by_cases h1 : a = .oneShot
    · rw [if_pos h1]
      cases u with
      | true => exact .inl rfl
      | false => exact .inr ⟨rfl, hsaid _ _⟩
    · rw [if_neg h1]
      cases u with
      | true => exact .inr ⟨rfl, hsaid _ _⟩
      | false => exact .inl rfl

/-- One call. -/
theorem sigTalk_step (hsaid : ∀ d b, ¬ goesOn (said d b)) (d : Bytes) (u : Bool) (a : Act) (b : OpIn) :
    (∃ u', (sigTalk k len parts stop said (.taking d u) a b).2 = .taking (d ++ if a = .update ∧ (sigTalk k len parts stop said (.taking d u) a b).1 = .ok then b.data else []) u' ∧
      (a = .update → ((sigTalk k len parts stop said (.taking d u) a b).1 = .ok ∧ parts = true ∧ u' = true) ∨ ((sigTalk k len parts stop said (.taking d u) a b).1 ≠ .ok ∧ u' = u)) ∧ (a ≠ .update → u' = u)) ∨
    ((sigTalk k len parts stop said (.taking d u) a b).2 = .ended ∧ (sigTalk k len parts stop said (.taking d u) a b).1 ≠ .ok ∧ a = .update ∧ parts = false ∧ stop = true) ∨
    ((sigTalk k len parts stop said (.taking d u) a b).2 = .ended ∧ a ≠ .update ∧ ¬ goesOn (sigTalk k len parts stop said (.taking d u) a b).1) := by
  by_cases hu : a = .update
  · subst hu
    cases parts with
    | true => exact .inl ⟨true, rfl, fun _ => .inl ⟨rfl, rfl, rfl⟩, fun h => absurd rfl h⟩
    | false =>
      cases stop with
      | true => exact .inr (.inl ⟨rfl, nofun, rfl, rfl, rfl⟩)
      | false =>
        refine .inl ⟨u, ?_, fun _ => .inr ⟨nofun, rfl⟩, fun _ => rfl⟩
        show Feeding.taking d u = .taking (d ++ []) u
        rw [List.append_nil]
  · rcases sigTalk_other (k := k) (len := len) (parts := parts) (stop := stop) hsaid d u b hu with h | h
    · refine .inl ⟨u, ?_, fun h => absurd h hu, fun _ => rfl⟩
      rw [h, if_neg (fun h => hu h.1), List.append_nil]
    · exact .inr (.inr ⟨h.1, hu, h.2⟩)

theorem sigTalk_ended (l : List (Act × OpIn)) : (describe (sigTalk k len parts stop said) .ended l).2 = .ended ∧
    ∀ r ∈ (describe (sigTalk k len parts stop said) .ended l).1, r ≠ .ok := by
  induction l with
  | nil => exact ⟨rfl, fun r hr => absurd hr List.not_mem_nil⟩
  | cons x l ih =>
    obtain ⟨a, b⟩ := x
    have h1 : (sigTalk k len parts stop said .ended a b).2 = .ended ∧ (sigTalk k len parts stop said .ended a b).1 ≠ .ok := by
      unfold sigTalk
      split <;> exact ⟨rfl, nofun⟩
    show (describe _ (sigTalk k len parts stop said .ended a b).2 l).2 = _ ∧ ∀ r ∈ (sigTalk k len parts stop said .ended a b).1 :: (describe _ (sigTalk k len parts stop said .ended a b).2 l).1, r ≠ .ok
    rw [h1.1]
    refine ⟨ih.1, fun r hr => ?_⟩
    rcases List.mem_cons.1 hr with rfl | hr
    · exact h1.2
    · exact ih.2 r hr

/-- All calls. -/
theorem sigTalk_run (hsaid : ∀ d b, ¬ goesOn (said d b)) (Y : List ((Act × OpIn) × Out)) (d : Bytes) (u : Bool)
    (hY : Y.map (·.2) = (describe (sigTalk k len parts stop said) (.taking d u) (Y.map (·.1))).1) :
    (acceptedPart Y → parts = true) ∧
    ((∃ u', (describe (sigTalk k len parts stop said) (.taking d u) (Y.map (·.1))).2 = .taking (d ++ partsOf Y) u' ∧ (u = false → ¬ acceptedPart Y → u' = false) ∧
        ((u = true ∨ acceptedPart Y) → u' = true)) ∨
      ((describe (sigTalk k len parts stop said) (.taking d u) (Y.map (·.1))).2 = .ended ∧ (¬ notDone Y ∨ ((parts = false ∧ stop = true) ∧ somePart Y)))) := by
  induction Y generalizing d u with
  | nil =>
    refine ⟨fun ⟨p, hp, _⟩ => absurd hp List.not_mem_nil, .inl ⟨u, ?_, fun h _ => h, fun h => h.elim id (fun ⟨p, hp, _⟩ => absurd hp List.not_mem_nil)⟩⟩
    show Feeding.taking d u = .taking (d ++ []) u
    rw [List.append_nil]
  | cons p Y ih =>
    obtain ⟨⟨a, b⟩, r⟩ := p
    change r :: Y.map (·.2) = (sigTalk k len parts stop said (.taking d u) a b).1 ::
      (describe (sigTalk k len parts stop said) (sigTalk k len parts stop said (.taking d u) a b).2 (Y.map (·.1))).1 at hY
    injection hY with hr hY
    show _ ∧ ((∃ u', (describe _ (sigTalk k len parts stop said (.taking d u) a b).2 (Y.map (·.1))).2 = .taking (d ++ partsOf (((a, b), r) :: Y)) u' ∧ _) ∨
      (describe _ (sigTalk k len parts stop said (.taking d u) a b).2 (Y.map (·.1))).2 = _ ∧ _)
    have late : (sigTalk k len parts stop said (.taking d u) a b).2 = .ended → ¬ acceptedPart Y := by
      intro h
      rw [h] at hY
      rintro ⟨p, hp, -, hp2⟩
      exact (sigTalk_ended _).2 p.2 (by rw [← hY]; exact List.mem_map_of_mem hp) hp2
    rcases sigTalk_step (k := k) (len := len) (parts := parts) (stop := stop) hsaid d u a b with ⟨u1, h1, h2, h3⟩ | ⟨h1, h2, h3, h4⟩ | ⟨h1, h2, h3⟩
    · rw [← hr] at h1 h2
      rw [h1] at hY ⊢
      obtain ⟨q1, q2⟩ := ih _ _ hY
      refine ⟨?_, ?_⟩
      · rintro ⟨p, hp, hp2⟩
        rcases List.mem_cons.1 hp with rfl | hp
        · exact (h2 hp2.1).elim (fun h => h.2.1) fun h => absurd hp2.2 h.1
        · exact q1 ⟨p, hp, hp2⟩
      · rcases q2 with ⟨u2, g1, g2, g3⟩ | ⟨g1, g2⟩
        · refine .inl ⟨u2, ?_, ?_, ?_⟩
          · rw [g1, partsOf_cons, List.append_assoc]
          · intro hu hn
            have hu1 : u1 = u := by
              by_cases ha : a = .update
              · exact (h2 ha).elim (fun h => absurd ⟨_, List.mem_cons_self, ha, h.1⟩ hn) fun h => h.2
              · exact h3 ha
            exact g2 (hu1.trans hu) fun ⟨p, hp, hp2⟩ => hn ⟨p, List.mem_cons_of_mem _ hp, hp2⟩
          · intro hs
            by_cases ha : a = .update
            · rcases h2 ha with h | h
              · exact g3 (.inl h.2.2)
              · rcases hs with hs | ⟨p, hp, hp2⟩
                · exact g3 (.inl (h.2.trans hs))
                · rcases List.mem_cons.1 hp with rfl | hp
                  · exact absurd hp2.2 h.1
                  · exact g3 (.inr ⟨p, hp, hp2⟩)
            · rcases hs with hs | ⟨p, hp, hp2⟩
              · exact g3 (.inl ((h3 ha).trans hs))
              · rcases List.mem_cons.1 hp with rfl | hp
                · exact absurd hp2.1 ha
                · exact g3 (.inr ⟨p, hp, hp2⟩)
        · refine .inr ⟨g1, g2.elim (fun h => .inl fun hn => h fun p hp => hn p (List.mem_cons_of_mem _ hp)) fun ⟨h, p, hp, hp2⟩ => .inr ⟨h, p, List.mem_cons_of_mem _ hp, hp2⟩⟩
    · refine ⟨?_, ?_⟩
      · rintro ⟨p, hp, hp2⟩
        rcases List.mem_cons.1 hp with rfl | hp
        · rw [← hr] at h2; exact absurd hp2.2 h2
        · exact absurd ⟨p, hp, hp2⟩ (late h1)
      · right
        rw [h1]
        exact ⟨(sigTalk_ended _).1, .inr ⟨h4, _, List.mem_cons_self, h3⟩⟩
    · refine ⟨?_, ?_⟩
      · rintro ⟨p, hp, hp2⟩
        rcases List.mem_cons.1 hp with rfl | hp
        · exact absurd hp2.1 h2
        · exact absurd ⟨p, hp, hp2⟩ (late h1)
      · right
        rw [h1]
        refine ⟨(sigTalk_ended _).1, .inl fun hn => ?_⟩
        rw [← hr] at h3
        rcases hn _ List.mem_cons_self with h | h
        · exact h2 h
        · exact h3 h

variable {Y : List ((Act × OpIn) × Out)} {a : Act} {b : OpIn} {r : Out}

/-- What a call that comes to a result answers. -/
theorem sigTalk_result (hsaid : ∀ d b, ¬ goesOn (said d b)) (hX : (Y ++ [((a, b), r)]).map (·.2) = (describe (sigTalk k len parts stop said) (.taking [] false) ((Y ++ [((a, b), r)]).map (·.1))).1)
    (hu : a ≠ .update) (hr : ¬ goesOn r) : r = said (aboutMsg Y a b) b ∧ macGate k len b = none := by
  obtain ⟨y1, y2⟩ := describe_last hX
  change r = (sigTalk k len parts stop said _ a b).1 at y2
  have hrun := (sigTalk_run hsaid Y [] false y1).2
  generalize (describe (sigTalk k len parts stop said) (.taking [] false) (Y.map (·.1))).2 = s at y2 hrun
  subst y2
  unfold sigTalk at hr ⊢
  by_cases hc : soloCall a
  case neg => rw [if_neg hc] at hr; exact absurd (by simp [goesOn]) hr
  rw [if_pos hc] at hr ⊢
  cases s with
  | ended => exact absurd (by simp [goesOn]) hr
  | taking d u =>
    have hd : d = partsOf Y := by
      rcases hrun with ⟨u', h, -⟩ | ⟨h, -⟩
      · injection h
      · cases h
    simp only at hr ⊢
    rw [if_neg hu] at hr ⊢
    cases hg : macGate k len b with
    | some r => rw [hg] at hr; exact absurd (gate_on hg) hr
    | none =>
      rw [hg] at hr
      simp only at hr ⊢
      unfold aboutMsg
      by_cases h1 : a = .oneShot
      · rw [if_pos h1] at hr ⊢
        rw [if_pos h1]
        cases u with
        | true => exact absurd (by simp [goesOn]) hr
        | false => exact ⟨rfl, trivial⟩
      · rw [if_neg h1] at hr ⊢
        rw [if_neg h1]
        cases u with
        | true => exact ⟨by rw [← hd]; rfl, trivial⟩
        | false => exact absurd (by simp [goesOn]) hr

/-- A call that has to come to a result does. -/
theorem sigTalk_ends_all (hsaid : ∀ d b, ¬ goesOn (said d b)) (hX : (Y ++ [((a, b), r)]).map (·.2) = (describe (sigTalk k len parts stop said) (.taking [] false) ((Y ++ [((a, b), r)]).map (·.1))).1)
    (ha : comesToEndStill Y a) (hs : stop = true → parts = false → ¬ somePart Y) (hg : macGate k len b = none) : r = said (aboutMsg Y a b) b := by
  obtain ⟨y1, y2⟩ := describe_last hX
  change r = (sigTalk k len parts stop said _ a b).1 at y2
  obtain ⟨hp, hrun⟩ := sigTalk_run hsaid Y [] false y1
  generalize (describe (sigTalk k len parts stop said) (.taking [] false) (Y.map (·.1))).2 = s at y2 hrun
  subst y2
  obtain ⟨hY, ha⟩ := ha
  rcases hrun with ⟨u', rfl, g1, g2⟩ | ⟨-, h⟩
  · unfold sigTalk aboutMsg
    rcases ha with ⟨rfl, h1⟩ | ⟨rfl, h1⟩
    · rw [if_pos (by decide)]
      simp only
      rw [if_neg (by decide), hg]
      simp only [if_true]
      rw [g1 rfl h1]
      rfl
    · rw [if_pos (by decide)]
      simp only
      rw [if_neg (by decide), hg]
      simp only
      rw [if_neg (by decide), g2 (.inr h1)]
      rfl
  · rcases h with h | ⟨⟨h1, h2⟩, h3⟩
    · exact absurd hY h
    · exact absurd h3 (hs h2 h1)

theorem sigTalk_ends (hsaid : ∀ d b, ¬ goesOn (said d b)) (hX : (Y ++ [((a, b), r)]).map (·.2) = (describe (sigTalk k len parts stop said) (.taking [] false) ((Y ++ [((a, b), r)]).map (·.1))).1)
    (ha : comesToEnd Y a) (hg : macGate k len b = none) : r = said (aboutMsg Y a b) b := by
  refine sigTalk_ends_all hsaid hX ⟨ha.1, ha.2.elim (fun h => .inl ⟨h.1, fun ⟨p, hp, h2, _⟩ => h.2 ⟨p, hp, h2⟩⟩) .inr⟩ (fun _ hp => ?_) hg
  rcases ha.2 with h | h
  · exact h.2
  · have := (sigTalk_run hsaid Y [] false (describe_last hX).1).1 h.2
    rw [hp] at this
    cases this

end

end Kry
