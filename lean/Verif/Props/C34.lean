import Verif.Model.Config
import Verif.Proofs.Cfg
import Verif.Props.MachineEx

/-!
# C34: slot numbers and storages of the configuration

`C34_args`: what any sequence of initialisation arguments leaves.  `C34_slots`: C_Initialize makes the slots of such a
configuration.  `C34_file_violation`, `C34_number_violation`: the default configuration file is not checked.
`C34_overflow_violation`: numbering past the highest slot number.
-/

namespace Kry
namespace Spec

/-- Two entries do not have the same number, nor the same storage. -/
def separate (a b : CSlot) : Prop := (a.slot ≠ noSlot → a.slot ≠ b.slot) ∧ ¬ (a.dbtype = b.dbtype ∧ a.dbargs = b.dbargs)

/-- No two entries of the configuration have the same number or the same storage. -/
def consistent (l : List CSlot) : Prop := l.Pairwise separate

/-- The entry `a` was replaced by `b`: a number may have been given to an entry without one. -/
def onlyNumbered (a b : CSlot) : Prop := ∃ n, b = { a with slot := n } ∧ (a.slot ≠ noSlot → b = a)

/-- Every entry of the old configuration is still there in its place; those with a number have not changed. -/
def extends_ (old new : List CSlot) : Prop := ∀ (k : Nat) (a : CSlot), old[k]? = some a → ∃ b, new[k]? = some b ∧ onlyNumbered a b

/-- The configuration after a list of initialisation arguments, whatever their results. -/
def afterArgs : List CSlot → List (Res (List CSlot)) → List CSlot
  | s, [] => s
  | s, a :: l => afterArgs (fromInitArgs s a).2 l

end Spec

open Spec

theorem separate_symm {a b : CSlot} (h : separate a b) : separate b a :=
  ⟨fun hb he => h.1 (he ▸ hb) he.symm, fun he => h.2 ⟨he.1.symm, he.2.symm⟩⟩

theorem onlyNumbered_refl (a : CSlot) : onlyNumbered a a := ⟨a.slot, rfl, fun _ => rfl⟩

theorem onlyNumbered_trans {a b c : CSlot} (h1 : onlyNumbered a b) (h2 : onlyNumbered b c) : onlyNumbered a c := by
  obtain ⟨n, h, h1⟩ := h1
  obtain ⟨m, h', h2⟩ := h2
  refine ⟨m, by rw [h', h], fun ha => ?_⟩
  have hb := h1 ha
  rw [hb] at h2
  exact h2 ha

theorem extends_refl (l : List CSlot) : extends_ l l := fun _ a h => ⟨a, h, onlyNumbered_refl a⟩

theorem extends_trans {a b c : List CSlot} (h1 : extends_ a b) (h2 : extends_ b c) : extends_ a c := by
  intro k x hx
  obtain ⟨y, hy, n1⟩ := h1 k x hx
  obtain ⟨z, hz, n2⟩ := h2 k y hy
  exact ⟨z, hz, onlyNumbered_trans n1 n2⟩

theorem extends_append (l r : List CSlot) : extends_ l (l ++ r) := by
  intro k a h
  refine ⟨a, ?_, onlyNumbered_refl a⟩
  rw [List.getElem?_append_left (List.getElem?_eq_some_iff.1 h).1]
  exact h

/-- What the comparison answers when it does not find the entry. -/
theorem matchSlots_new {c c' : CSlot} {self : List CSlot} (h : matchSlots c false self = .ok (c', false)) :
    c' = c ∧ ∀ s ∈ self, separate s c := by
  have mono : ∀ (l : List CSlot) (c c' : CSlot), matchSlots c true l ≠ .ok (c', false) := by
    intro l
    induction l with
    | nil => intro c c' h; simp [matchSlots] at h
    | cons s l ih =>
      intro c c' h
      unfold matchSlots at h
      repeat' split at h
      all_goals first | exact ih _ _ h | cases h
  induction self with
  | nil => injection h with h; cases h; exact ⟨rfl, nofun⟩
  | cons s l ih =>
    unfold matchSlots at h
    repeat' split at h
    all_goals first | (exact absurd h (mono _ _ _)) | (cases h; done) | skip
    · rename_i h1 h2
      refine ⟨(ih h).1, fun x hx => ?_⟩
      rcases List.mem_cons.1 hx with rfl | hx
      · exact ⟨fun hn he => hn (he.trans h1), h2⟩
      · exact (ih h).2 x hx
    · rename_i h1 h2 h3
      refine ⟨(ih h).1, fun x hx => ?_⟩
      rcases List.mem_cons.1 hx with rfl | hx
      · exact ⟨fun hn he => h2 he.symm, h3⟩
      · exact (ih h).2 x hx

theorem addSlots_ok {self l : List CSlot} (hs : consistent self) :
    consistent (addSlots self l).2 ∧ extends_ self (addSlots self l).2 := by
  induction l generalizing self with
  | nil => exact ⟨hs, extends_refl _⟩
  | cons c l ih =>
    unfold addSlots
    split
    · exact ⟨hs, extends_refl _⟩
    · rename_i c' found h
      cases found with
      | true => exact ih hs
      | false =>
        obtain ⟨rfl, ha⟩ := matchSlots_new h
        have hs' : consistent (self ++ [c']) := by
          refine List.pairwise_append.2 ⟨hs, List.pairwise_singleton _ _, fun a ha' b hb => ?_⟩
          rw [List.mem_singleton.1 hb]
          exact ha a ha'
        obtain ⟨i1, i2⟩ := ih hs'
        exact ⟨i1, extends_trans (extends_append self [c']) i2⟩

theorem nextSlot_le (n : Nat) (l : List CSlot) : n ≤ nextSlot n l := by
  induction l generalizing n with
  | nil => exact Nat.le_refl _
  | cons c l ih =>
    unfold nextSlot
    refine Nat.le_trans ?_ (ih _)
    repeat' split
    all_goals omega

theorem nextSlot_above (n : Nat) (l : List CSlot) : ∀ c ∈ l, c.slot ≠ noSlot → c.slot < nextSlot n l := by
  induction l generalizing n with
  | nil => nofun
  | cons a l ih =>
    intro c hc hn
    unfold nextSlot
    rcases List.mem_cons.1 hc with rfl | hc
    · refine Nat.lt_of_lt_of_le ?_ (nextSlot_le _ l)
      rw [if_pos hn]
      split <;> omega
    · exact ih _ c hc hn

/-- Numbering from `n` on, above all numbers in use. -/
theorem fillSlots_ok {n : Nat} {l r : List CSlot} (hl : consistent l) (hn : ∀ c ∈ l, c.slot ≠ noSlot → c.slot < n)
    (h : fillSlots n l = .ok r) :
    consistent r ∧ extends_ l r ∧ (∀ c ∈ r, c.slot ≠ noSlot) ∧ ∀ b ∈ r, b ∈ l ∨ ∃ a ∈ l, a.slot = noSlot ∧ ∃ m, n ≤ m ∧ b = { a with slot := m } := by
  induction l generalizing n r with
  | nil => injection h with h; subst h; exact ⟨List.Pairwise.nil, extends_refl _, nofun, nofun⟩
  | cons c l ih =>
    obtain ⟨hc, hl⟩ := List.pairwise_cons.1 hl
    unfold fillSlots at h
    split at h
    · rename_i h1
      split at h
      · cases h
      · rename_i h2
        split at h
        · cases h
        · rename_i r' h3
          injection h with h
          subst h
          obtain ⟨i1, i2, i3, i4⟩ := ih hl (fun x hx hx' => Nat.lt_succ_of_lt (hn x (List.mem_cons_of_mem _ hx) hx')) h3
          refine ⟨List.pairwise_cons.2 ⟨fun b hb => ?_, i1⟩, ?_, ?_, ?_⟩
          · rcases i4 b hb with hb | ⟨a, ha, ha1, m, hm, rfl⟩
            · refine ⟨fun _ he => ?_, (hc b hb).2⟩
              simp only at he
              have := hn b (List.mem_cons_of_mem _ hb) (by rw [← he]; exact h2)
              omega
            · refine ⟨fun _ he => ?_, (hc a ha).2⟩
              simp only at he
              omega
          · intro k a hk
            cases k with
            | zero =>
              cases hk
              exact ⟨_, rfl, n, rfl, fun h => absurd h1 h⟩
            | succ k => exact i2 k a hk
          · intro x hx
            rcases List.mem_cons.1 hx with rfl | hx
            · exact h2
            · exact i3 x hx
          · intro b hb
            rcases List.mem_cons.1 hb with rfl | hb
            · exact .inr ⟨c, List.mem_cons_self .., h1, n, Nat.le_refl _, rfl⟩
            · rcases i4 b hb with hb | ⟨a, ha, ha1, m, hm, e⟩
              · exact .inl (List.mem_cons_of_mem _ hb)
              · exact .inr ⟨a, List.mem_cons_of_mem _ ha, ha1, m, by omega, e⟩
    · rename_i h1
      split at h
      · cases h
      · rename_i r' h3
        injection h with h
        subst h
        obtain ⟨i1, i2, i3, i4⟩ := ih hl (fun x hx => hn x (List.mem_cons_of_mem _ hx)) h3
        refine ⟨List.pairwise_cons.2 ⟨fun b hb => ?_, i1⟩, ?_, ?_, ?_⟩
        · rcases i4 b hb with hb | ⟨a, ha, ha1, m, hm, rfl⟩
          · exact hc b hb
          · refine ⟨fun _ he => ?_, (hc a ha).2⟩
            simp only at he
            have := hn c (List.mem_cons_self ..) h1
            omega
        · intro k a hk
          cases k with
          | zero => cases hk; exact ⟨_, rfl, onlyNumbered_refl _⟩
          | succ k => exact i2 k a hk
        · intro x hx
          rcases List.mem_cons.1 hx with rfl | hx
          · exact h1
          · exact i3 x hx
        · intro b hb
          rcases List.mem_cons.1 hb with rfl | hb
          · exact .inl (List.mem_cons_self ..)
          · rcases i4 b hb with hb | ⟨a, ha, ha1, m, hm, e⟩
            · exact .inl (List.mem_cons_of_mem _ hb)
            · exact .inr ⟨a, List.mem_cons_of_mem _ ha, ha1, m, hm, e⟩

theorem fromInitArgs_ok {self : List CSlot} (a : Res (List CSlot)) (hs : consistent self) :
    consistent (fromInitArgs self a).2 ∧ extends_ self (fromInitArgs self a).2 ∧
      ((fromInitArgs self a).1 = .ok () → ∀ c ∈ (fromInitArgs self a).2, c.slot ≠ noSlot) := by
  unfold fromInitArgs
  split
  · exact ⟨hs, extends_refl _, nofun⟩
  · rename_i l
    obtain ⟨i1, i2⟩ := @addSlots_ok self l hs
    generalize addSlots self l = q at *
    obtain ⟨r, self'⟩ := q
    simp only at i1 i2 ⊢
    split
    · exact ⟨i1, i2, nofun⟩
    · split
      · exact ⟨i1, i2, nofun⟩
      · rename_i r' h
        obtain ⟨j1, j2, j3, -⟩ := fillSlots_ok i1 (nextSlot_above 0 self') h
        exact ⟨j1, extends_trans i2 j2, fun _ => j3⟩

/-- After any sequence of initialisation arguments (some of them refused) the entries are apart; any further arguments leave the
entries in place and those with a number as they are; arguments that are accepted leave no entry without a number. -/
theorem C34_args (args more : List (Res (List CSlot))) (a : Res (List CSlot)) :
    consistent (afterArgs [] args) ∧ extends_ (afterArgs [] args) (afterArgs [] (args ++ more)) ∧
      ((fromInitArgs (afterArgs [] args) a).1 = .ok () → ∀ c ∈ (fromInitArgs (afterArgs [] args) a).2, c.slot ≠ noSlot) := by
  have gen : ∀ (l : List (Res (List CSlot))) (s : List CSlot), consistent s → consistent (afterArgs s l) ∧ extends_ s (afterArgs s l) := by
    intro l
    induction l with
    | nil => exact fun s hs => ⟨hs, extends_refl s⟩
    | cons a l ih =>
      intro s hs
      obtain ⟨h1, h2, -⟩ := fromInitArgs_ok a hs
      obtain ⟨h3, h4⟩ := ih _ h1
      exact ⟨h3, extends_trans h2 h4⟩
  have app : ∀ (l m : List (Res (List CSlot))) (s : List CSlot), afterArgs s (l ++ m) = afterArgs (afterArgs s l) m := by
    intro l m
    induction l with
    | nil => exact fun s => rfl
    | cons a l ih => intro s; exact ih _
  obtain ⟨h1, -⟩ := gen args [] List.Pairwise.nil
  exact ⟨h1, by rw [app]; exact (gen more _ h1).2, (fromInitArgs_ok a h1).2.2⟩

/-! ## The slots -/

/-- The configuration has an entry for what was asked: the storage named, under the number given if one was given. -/
def Spec.present (l : List CSlot) (c : CSlot) : Prop :=
  ∃ s ∈ l, s.dbtype = c.dbtype ∧ s.dbargs = c.dbargs ∧ (c.slot ≠ noSlot → s.slot = c.slot)

theorem matchSlots_found {c c' : CSlot} {l : List CSlot} {found : Bool} (h : matchSlots c found l = .ok (c', true)) :
    found = true ∨ present l c := by
  induction l generalizing c found with
  | nil => unfold matchSlots at h; injection h with h; injection h with _ h; exact .inl h
  | cons s l ih =>
    have up : found = true ∨ present l c → found = true ∨ present (s :: l) c := by
      rintro (h | ⟨x, hx, h⟩)
      · exact .inl h
      · exact .inr ⟨x, List.mem_cons_of_mem _ hx, h⟩
    unfold matchSlots at h
    split at h
    · rename_i hn
      split at h
      · rename_i hm
        exact .inr ⟨s, List.mem_cons_self, hm.1, hm.2, fun hc => absurd hn hc⟩
      · exact up (ih h)
    · split at h
      · split at h
        · cases h
        · exact up (ih h)
      · rename_i he
        split at h
        · cases h
        · rename_i h1
          split at h
          · cases h
          · rename_i h2
            exact .inr ⟨s, List.mem_cons_self, Decidable.not_not.1 h1, Decidable.not_not.1 h2, fun _ => (Decidable.not_not.1 he).symm⟩

theorem present_extends {l l' : List CSlot} {c : CSlot} (h : present l c) (he : extends_ l l') : present l' c := by
  obtain ⟨s, hs, h1, h2, h3⟩ := h
  obtain ⟨k, hk⟩ := List.mem_iff_getElem?.1 hs
  obtain ⟨b, hb, n, rfl, h4⟩ := he k s hk
  refine ⟨_, List.mem_iff_getElem?.2 ⟨k, hb⟩, h1, h2, fun hc => ?_⟩
  have hn := h3 hc
  rw [h4 (by rw [hn]; exact hc)]
  exact hn

theorem addSlots_present {self l self' : List CSlot} (hs : consistent self) (h : addSlots self l = (.ok (), self')) :
    ∀ c ∈ l, present self' c := by
  induction l generalizing self with
  | nil => exact nofun
  | cons c l ih =>
    unfold addSlots at h
    split at h
    · simp only [Prod.mk.injEq] at h; cases h.1
    · rename_i c' found hm
      have key : ∃ self1, consistent self1 ∧ present self1 c ∧ addSlots self1 l = (.ok (), self') := by
        cases found with
        | true =>
          rcases matchSlots_found hm with hc | hc
          · cases hc
          · exact ⟨self, hs, hc, h⟩
        | false =>
          obtain ⟨rfl, ha⟩ := matchSlots_new hm
          refine ⟨self ++ [c'], ?_, ⟨c', by simp, rfl, rfl, fun _ => rfl⟩, h⟩
          refine List.pairwise_append.2 ⟨hs, List.pairwise_singleton _ _, fun a ha' b hb => ?_⟩
          rw [List.mem_singleton.1 hb]
          exact ha a ha'
      obtain ⟨self1, h1, h2, h3⟩ := key
      have h4 := (@addSlots_ok self1 l h1).2
      rw [h3] at h4
      intro x hx
      rcases List.mem_cons.1 hx with rfl | hx
      · exact present_extends h2 h4
      · exact ih h1 h3 x hx

/-- Arguments that are accepted are honoured: each storage they name has a slot, under the number they give if they give one.  So the same
number for another storage, or another number for the same storage, is never accepted. -/
theorem C34_present (args : List (Res (List CSlot))) (l : List CSlot) (h : (fromInitArgs (afterArgs [] args) (.ok l)).1 = .ok ()) :
    ∀ c ∈ l, present (fromInitArgs (afterArgs [] args) (.ok l)).2 c := by
  have hs := (C34_args args [] (.ok l)).1
  generalize afterArgs [] args = self at *
  unfold fromInitArgs at h ⊢
  simp only at h ⊢
  cases ha : addSlots self l with
  | mk r self' =>
    rw [ha] at h
    cases r with
    | error r => cases h
    | ok u =>
      cases u
      simp only at h ⊢
      cases hf : fixSlotNumbers self' with
      | error r => simp only [hf] at h; cases h
      | ok l' =>
        have h1 := (@addSlots_ok self l hs).1
        rw [ha] at h1
        intro c hc
        exact present_extends (addSlots_present hs ha c hc) (fillSlots_ok h1 (nextSlot_above 0 self') hf).2.1

theorem initSlots_keys {C : Crypto} {e : Env} {s s' : St} {b : Bool} {conf : List (Nat × TokCfg)} {k : Nat}
    (h : initSlots C e s b conf k = (none, s')) :
    b = false ∧ AMap.keys s'.slots = AMap.keys s.slots ++ AMap.keys conf ∧
      (∀ i ∈ AMap.keys conf, AMap.get s.slots i = none) ∧ (AMap.keys conf).Nodup := by
  induction conf generalizing s b k with
  | nil =>
    unfold initSlots at h
    cases b <;> cases h
    exact ⟨rfl, by simp [AMap.keys], nofun, List.nodup_nil⟩
  | cons p conf ih =>
    obtain ⟨i, cfg⟩ := p
    unfold initSlots at h
    simp only at h
    split at h
    · cases h
    · split at h
      · cases (ih h).1
      · rename_i hn
        obtain ⟨h1, h2, h3, h4⟩ := ih h
        refine ⟨h1, ?_, ?_, List.nodup_cons.2 ⟨fun hi => ?_, h4⟩⟩
        · rw [h2]
          simp [AMap.keys]
        · intro j hj
          rcases List.mem_cons.1 hj with rfl | hj
          · exact hn
          · have := h3 j hj
            rw [AMap.get_append] at this
            cases hg : AMap.get s.slots j with
            | none => rfl
            | some v => rw [hg] at this; cases this
        · have := h3 i hi
          rw [AMap.get_append, hn] at this
          simp [AMap.get] at this

theorem initSlots_old {C : Crypto} {e : Env} {s : St} {b : Bool} {conf : List (Nat × TokCfg)} {k i : Nat} {sl : Slot}
    (h : AMap.get s.slots i = some sl) : AMap.get (initSlots C e s b conf k).2.slots i = some sl := by
  induction conf generalizing s b k with
  | nil => exact h
  | cons p conf ih =>
    obtain ⟨j, cfg⟩ := p
    unfold initSlots
    simp only
    split
    · exact h
    · split
      · exact ih h
      · refine ih ?_
        simp only [AMap.get_append, h]

theorem initSlots_err {C : Crypto} {e : Env} {s : St} {conf : List (Nat × TokCfg)} {k : Nat} (hd : (AMap.keys conf).Nodup)
    (hs : ∀ i ∈ AMap.keys conf, AMap.get s.slots i = none) {r : Rv} (h : (initSlots C e s false conf k).1 = some r) :
    ∃ i cfg j db, (i, cfg) ∈ conf ∧ Token.new C (e.sub j) db cfg = .error r := by
  induction conf generalizing s k with
  | nil => cases h
  | cons p conf ih =>
    obtain ⟨i, cfg⟩ := p
    obtain ⟨hi, hd⟩ := List.nodup_cons.1 hd
    unfold initSlots at h
    simp only at h
    split at h
    · rename_i r' hr
      cases h
      exact ⟨i, cfg, k, _, List.mem_cons_self .., hr⟩
    · split at h
      · rename_i hg
        rw [hs i (List.mem_cons_self ..)] at hg
        cases hg
      · obtain ⟨j, c, n, db, h1, h2⟩ := ih hd (fun j hj => by
          simp only [AMap.get_append, hs j (List.mem_cons_of_mem _ hj), AMap.get_cons, AMap.get_nil]
          rw [if_neg]
          rintro rfl
          exact hi hj) h
        exact ⟨j, c, n, db, List.mem_cons_of_mem _ h1, h2⟩

/-- The numbers and token settings of a configuration; `f` gives the settings of an entry. -/
def Spec.asConf (f : CSlot → TokCfg) (l : List CSlot) : List (Nat × TokCfg) := l.map fun c => (c.slot, f c)

/-- After accepted initialisation arguments the first C_Initialize makes one slot for every entry of the configuration, under its
number, unless a token can not be opened; a later C_Initialize leaves the slots there are alone. -/
theorem C34_slots (M : Mechs) (C : Crypto) (O : Oracle) (e : Env) (s : St) (args : List (Res (List CSlot))) (a : Res (List CSlot))
    (hok : (fromInitArgs (afterArgs [] args) a).1 = .ok ()) (f : CSlot → TokCfg) (conf : List (Nat × TokCfg))
    (hconf : conf = asConf f (fromInitArgs (afterArgs [] args) a).2) :
    (s.ready = false → (AMap.keys conf).Nodup ∧
      (((step M C O e s (.initialize conf)).1 = .ok ∧ AMap.keys (step M C O e s (.initialize conf)).2.slots = AMap.keys conf) ∨
        ∃ r i cfg j db, (step M C O e s (.initialize conf)).1 = .err r ∧ (i, cfg) ∈ conf ∧ Token.new C (e.sub j) db cfg = .error r)) ∧
    (s.ready = true → ∀ i sl, AMap.get s.slots i = some sl → AMap.get (step M C O e s (.initialize conf)).2.slots i = some sl) := by
  refine ⟨fun hr => ?_, fun hr i sl hs => ?_⟩
  · have hnd : (AMap.keys conf).Nodup := by
      obtain ⟨h1, -, -⟩ := fromInitArgs_ok a (C34_args args [] a).1
      have h2 := (C34_args args [] a).2.2 hok
      generalize (fromInitArgs (afterArgs [] args) a).2 = l at *
      rw [hconf]
      unfold asConf AMap.keys
      rw [List.map_map]
      refine List.pairwise_map.2 ?_
      refine List.Pairwise.imp_of_mem ?_ h1
      intro x y hx hy hxy
      exact hxy.1 (h2 x hx)
    refine ⟨hnd, ?_⟩
    simp only [step, fnInitialize, hr]
    have h1 := @initSlots_err C e { s with slots := [], smap := [], next := 1 } conf 0 hnd (fun _ _ => rfl)
    have h2 := fun s' => @initSlots_keys C e { s with slots := [], smap := [], next := 1 } s' false conf 0
    simp only [Bool.false_eq_true, if_false]
    generalize initSlots C e { s with slots := [], smap := [], next := 1 } false conf 0 = q at *
    obtain ⟨r, s'⟩ := q
    cases r with
    | none => exact .inl ⟨rfl, by simpa [AMap.keys] using (h2 s' rfl).2.1⟩
    | some r =>
      obtain ⟨i, cfg, j, db, h3, h4⟩ := h1 (r := r) rfl
      exact .inr ⟨r, i, cfg, j, db, rfl, h3, h4⟩
  · simp only [step, fnInitialize, hr, if_true]
    exact initSlots_old hs

/-! ## Cases and counterexamples -/

/-- Entries with the storages `a` and `b`. -/
def exA : CSlot := CSlot.unnumbered [115] [97] none
def exB : CSlot := ⟨5, none, none, some [115], some [98], none, none⟩

/-- An unnumbered entry, a numbered one and the first again: it is recognised; then the second storage under another number: refused. -/
example : afterArgs [] [.ok [exA], .ok [exB], .ok [exA], .ok [{ exB with slot := 6 }]] = [{ exA with slot := 0 }, exB] ∧
    (fromInitArgs (afterArgs [] [.ok [exA], .ok [exB], .ok [exA]]) (.ok [{ exB with slot := 6 }])).1 = .error .argumentsBad ∧
    (fromInitArgs (afterArgs [] [.ok [exA], .ok [exB]]) (.ok [exA])).1 = .ok () := by decide +kernel

/-- For `C34_present`: the second storage is asked for again without a number; the number of the first for another storage is refused. -/
example : (fromInitArgs (afterArgs [] [.ok [exA], .ok [exB]]) (.ok [{ exB with slot := noSlot }])).1 = .ok () ∧
    (fromInitArgs (afterArgs [] [.ok [exA], .ok [exB]]) (.ok [{ exB with slot := 0 }])).1 = .error .argumentsBad := by decide +kernel

/-- C_Initialize with them. -/
example : (step exMechs exCrypto exOracle (exEnv 0) (St.init [])
      (.initialize (asConf (fun _ => ⟨[CKM_SHA256], none, none⟩) (fromInitArgs (afterArgs [] [.ok [exA]]) (.ok [exB])).2))).1 = .ok := by
  decide +kernel

/-- The code does not keep the claim for the default configuration file: one storage in two slots. -/
theorem C34_file_violation : ∃ l, (loadConfig [] none (.ok l)) = (.ok (), l) ∧ (∀ c ∈ l, c.slot ≠ noSlot) ∧ ¬ consistent l := by
  refine ⟨[exB, { exB with slot := 6 }], by decide +kernel, by decide +kernel, fun h => ?_⟩
  exact (List.pairwise_cons.1 h).1 { exB with slot := 6 } (List.mem_cons_self ..) |>.2 ⟨rfl, rfl⟩

/-- And one number for two storages: the first C_Initialize says that the library is already initialised, and the second storage
has no slot. -/
theorem C34_number_violation : ∃ (M : Mechs) (C : Crypto) (O : Oracle) (e : Env) (a b : CSlot) (f : CSlot → TokCfg),
    ¬ (a.dbargs = b.dbargs) ∧ loadConfig [] none (.ok [a, b]) = (.ok (), [a, b]) ∧
    (step M C O e (St.init []) (.initialize (asConf f [a, b]))).1 = .err .cryptokiAlreadyInitialized ∧
    AMap.keys (step M C O e (St.init []) (.initialize (asConf f [a, b]))).2.slots = [5] :=
  ⟨exMechs, exCrypto, exOracle, exEnv 0, exB, { exB with dbargs := some [99] }, fun _ => ⟨[CKM_SHA256], none, none⟩,
    by decide +kernel, by decide +kernel, by decide +kernel, by decide +kernel⟩

/-- A file may also give the highest number but one; then numbering another entry overflows. -/
theorem C34_overflow_violation : ∃ a b, a.slot < 2 ^ 32 ∧ (fromInitArgs (afterArgs [] [.ok [a]]) (.ok [b])).1 = .error .panic :=
  ⟨{ exB with slot := 2 ^ 32 - 2 }, exA, by decide +kernel, by decide +kernel⟩

end Kry
