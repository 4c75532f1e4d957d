import Verif.Model.Config
import Verif.Proofs.Machine
import Verif.Proofs.Cfg
import Verif.Proofs.KeyFacts
import Verif.Props.MachineEx

/-!
# C32: C_GetSlotList and C_GetMechanismList

`C32_slots`, `C32_mechs`: in every reachable state the two calls answer, according to the two-call protocol, the list that is in
ascending order, without repetition, and has exactly the configured slots (the mechanisms offered).
-/

namespace Kry
namespace Spec

/-- The two-call protocol, for the list `l`: the answer of a call on memory `b`. -/
def twoCall (l : List Nat) (b : ListBuf) (a : Res Unit × ListBuf) : Prop :=
  match b.list with
  | none => a = (.ok (), ⟨none, l.length⟩)
  | some mem =>
    if b.count < l.length then a = (.error .bufferTooSmall, b)
    else a = (.ok (), ⟨some (l ++ mem.drop l.length), l.length⟩)

/-- The application's memory has room for what it says. -/
def honest (b : ListBuf) : Prop := ∀ mem, b.list = some mem → b.count ≤ mem.length

/-- Ascending without repetition. -/
def ascending : List Nat → Prop
  | [] => True
  | a :: l => (∀ b ∈ l, a < b) ∧ ascending l

/-- `i` is the number of a slot: C_GetTokenInfo does not say CKR_SLOT_ID_INVALID. -/
def isSlot (M : Mechs) (C : Crypto) (O : Oracle) (s : St) (i : Nat) : Prop :=
  ∀ e, (step M C O e s (.getTokenInfo i)).1 ≠ .err .slotIdInvalid

end Spec

open Spec

variable {M : Mechs} {C : Crypto} {O : Oracle}

theorem writeAt_ok (l : List Nat) : ∀ (pre mem : List Nat), l.length ≤ mem.length →
    writeAt (pre ++ mem) pre.length l = .ok (pre ++ (l ++ mem.drop l.length)) := by
  induction l with
  | nil => intro pre mem _; simp [writeAt]
  | cons x l ih =>
    intro pre mem h
    cases mem with
    | nil => simp at h
    | cons y mem =>
      unfold writeAt
      rw [if_pos (by simp)]
      have := ih (pre ++ [x]) mem (by simpa using h)
      simp only [List.length_append, List.length_cons, List.length_nil, List.append_assoc, List.cons_append, List.nil_append] at this
      rw [show (pre ++ y :: mem).set pre.length x = pre ++ x :: mem by simp]
      simpa using this

theorem answerList_two (l : List Nat) (b : ListBuf) (h : honest b) : twoCall l b (answerList l b) := by
  obtain ⟨list, count⟩ := b
  unfold twoCall answerList
  cases list with
  | none => rfl
  | some mem =>
    simp only
    have := h mem rfl
    simp only at this
    split
    · rfl
    · have w := writeAt_ok l [] mem (by omega)
      simp only [List.nil_append, List.length_nil] at w
      rw [w]

theorem mem_insertLe {k x : Nat} {l : List Nat} : x ∈ insertLe k l ↔ x = k ∨ x ∈ l := by
  induction l with
  | nil => simp [insertLe]
  | cons a l ih =>
    unfold insertLe
    split
    · simp
    · simp only [List.mem_cons, ih]
      constructor
      · rintro (h | h | h) <;> simp [h]
      · rintro (h | h | h) <;> simp [h]

theorem ascending_insertLe {k : Nat} {l : List Nat} (hk : k ∉ l) (h : ascending l) : ascending (insertLe k l) := by
  induction l with
  | nil => exact ⟨nofun, trivial⟩
  | cons a l ih =>
    have hne : k ≠ a := fun e => hk (e ▸ List.mem_cons_self ..)
    unfold insertLe
    split
    · refine ⟨fun b hb => ?_, h⟩
      rcases List.mem_cons.1 hb with rfl | hb
      · omega
      · have := h.1 b hb; omega
    · refine ⟨fun b hb => ?_, ih (fun hm => hk (List.mem_cons_of_mem _ hm)) h.2⟩
      rcases mem_insertLe.1 hb with rfl | hb
      · omega
      · exact h.1 b hb

theorem mem_sortNat {x : Nat} {l : List Nat} : x ∈ sortNat l ↔ x ∈ l := by
  induction l with
  | nil => exact Iff.rfl
  | cons a l ih =>
    show x ∈ insertLe a (sortNat l) ↔ _
    rw [mem_insertLe, ih, List.mem_cons]

theorem sortNat_ascending {l : List Nat} (h : l.Nodup) : ascending (sortNat l) := by
  induction l with
  | nil => trivial
  | cons a l ih =>
    obtain ⟨h1, h2⟩ := List.nodup_cons.1 h
    exact ascending_insertLe (fun hm => h1 (mem_sortNat.1 hm)) (ih h2)

theorem ascending_filter {l : List Nat} (f : Nat → Bool) (h : ascending l) : ascending (l.filter f) := by
  induction l with
  | nil => trivial
  | cons a l ih =>
    rw [List.filter_cons]
    split
    · exact ⟨fun b hb => h.1 b (List.mem_filter.1 hb).1, ih h.2⟩
    · exact ih h.2

theorem mem_btreeInsert {k x : Nat} {l : List Nat} : x ∈ btreeInsert k l ↔ x = k ∨ x ∈ l := by
  induction l with
  | nil => simp [btreeInsert]
  | cons a l ih =>
    unfold btreeInsert
    split
    · simp
    · split
      · rename_i h; subst h; simp
      · simp only [List.mem_cons, ih]
        constructor
        · rintro (h | h | h) <;> simp [h]
        · rintro (h | h | h) <;> simp [h]

theorem ascending_btreeInsert {k : Nat} {l : List Nat} (h : ascending l) : ascending (btreeInsert k l) := by
  induction l with
  | nil => exact ⟨nofun, trivial⟩
  | cons a l ih =>
    unfold btreeInsert
    split
    · rename_i hk
      refine ⟨fun b hb => ?_, h⟩
      rcases List.mem_cons.1 hb with rfl | hb
      · exact hk
      · exact Nat.lt_trans hk (h.1 b hb)
    · split
      · exact h
      · refine ⟨fun b hb => ?_, ih h.2⟩
        rcases mem_btreeInsert.1 hb with rfl | hb
        · omega
        · exact h.1 b hb

/-- The register of mechanisms lists what was registered, in ascending order and without repetition, in whatever order and however
often it was registered. -/
theorem C32_register (l : List Nat) : ascending (registered l) ∧ ∀ m, m ∈ registered l ↔ m ∈ l := by
  have : ∀ (l acc : List Nat), ascending acc → ascending (l.foldl (fun r k => btreeInsert k r) acc) ∧
      ∀ m, m ∈ l.foldl (fun r k => btreeInsert k r) acc ↔ m ∈ l ∨ m ∈ acc := by
    intro l
    induction l with
    | nil => intro acc h; exact ⟨h, fun m => by simp⟩
    | cons a l ih =>
      intro acc h
      obtain ⟨h1, h2⟩ := ih (btreeInsert a acc) (ascending_btreeInsert h)
      refine ⟨h1, fun m => ?_⟩
      rw [List.foldl_cons, h2, mem_btreeInsert, List.mem_cons]
      constructor
      · rintro (h | h | h) <;> simp [h]
      · rintro ((h | h) | h) <;> simp [h]
  obtain ⟨h1, h2⟩ := this l [] trivial
  exact ⟨h1, fun m => by rw [show registered l = l.foldl (fun r k => btreeInsert k r) [] from rfl, h2]; simp⟩

theorem isSlot_iff {s : St} (hr : s.ready = true) (i : Nat) : isSlot M C O s i ↔ i ∈ AMap.keys s.slots := by
  unfold isSlot step
  simp only [St.getSlot, hr, Bool.not_true, Bool.false_eq_true, if_false]
  rw [AMap.mem_keys]
  cases AMap.get s.slots i with
  | none => simp; exact ⟨quietEnv, trivial⟩
  | some sl => simp

/-- C_GetSlotList of a reachable state. -/
theorem C32_slots (d : List (Nat × Db)) (tr : Trace) (hr : (after M C O d tr).ready = true) :
    ∃ l, ascending l ∧ (∀ i, i ∈ l ↔ isSlot M C O (after M C O d tr) i) ∧
      ∀ b, honest b → twoCall l b (fnSlotList (after M C O d tr) b) := by
  have hi : Inv (after M C O d tr) := inv_reach M O d tr
  generalize after M C O d tr = s at *
  refine ⟨s.slotIds, ?_, fun i => ?_, fun b hb => ?_⟩
  · exact sortNat_ascending hi.slotsND
  · rw [isSlot_iff hr]
    exact mem_sortNat
  · unfold fnSlotList
    rw [hr]
    exact answerList_two _ _ hb

/-- C_GetMechanismList of an initialised token of a reachable state; every configuration of the run gives its tokens a register of
mechanisms. -/
theorem C32_mechs (d : List (Nat × Db)) (tr : Trace)
    (hreg : ∀ p ∈ tr, ∀ conf, p.2 = .initialize conf → ∀ q ∈ conf, ∃ reg, q.2.mechs = registered reg)
    (i : Nat) (hok : ∃ b, (fnMechList (after M C O d tr) i b).1 = .ok ()) :
    ∃ l, ascending l ∧ (∀ m, m ∈ l ↔ ∃ f, fnMechInfo M (after M C O d tr) i m = .ok f) ∧
      ∀ b, honest b → twoCall l b (fnMechList (after M C O d tr) i b) := by
  have hc := fun sl => @cfg_from M C O d tr i sl
  generalize after M C O d tr = s at *
  obtain ⟨b0, hok⟩ := hok
  unfold fnMechList fnMechInfo at *
  cases hg : s.getSlot i with
  | error r => rw [hg] at hok; cases hok
  | ok sl =>
    have hs : AMap.get s.slots i = some sl := by
      unfold St.getSlot at hg
      split at hg
      · cases hg
      · split at hg
        · rename_i h; rw [h]; injection hg with hg; rw [hg]
        · cases hg
    rw [hg] at hok
    simp only at hok ⊢
    split at hok
    · cases hok
    rename_i hini
    obtain ⟨p, hp, conf, hpc, hmem⟩ := hc sl hs
    obtain ⟨reg, hreg⟩ := hreg p hp conf hpc _ hmem
    simp only at hreg
    refine ⟨sl.token.mechsList, ?_, fun m => ?_, fun b hb => ?_⟩
    · have := (C32_register reg).1
      rw [← hreg] at this
      unfold Token.mechsList
      split
      · exact this
      · exact ascending_filter _ this
      · exact ascending_filter _ this
    · rw [if_neg hini]
      simp only [List.contains_eq_mem, decide_eq_true_eq]
      constructor
      · intro h; exact ⟨_, by rw [if_pos h]⟩
      · rintro ⟨f, h⟩
        split at h
        · assumption
        · cases h
    · rw [if_neg hini]
      exact answerList_two _ _ hb

/-! ## Cases -/

/-- Two slots, given in descending order, with mechanisms registered in some order, one of them twice. -/
def exListConf : List (Nat × TokCfg) :=
  [(9, ⟨registered [CKM_SHA256, CKM_AES_ECB, CKM_RSA_PKCS, CKM_SHA256], some (true, [CKM_RSA_PKCS]), none⟩), (7, ⟨registered [CKM_SHA256], none, none⟩)]

def exListRun : Trace := [(exEnv 0, .initialize exListConf), (exEnv 1, .initToken 9 exSoPin none)]

/-- The hypotheses and what is answered: NULL, room for one, room for three. -/
example : (exRun exListRun).ready = true ∧ honest ⟨some [0, 0, 5], 3⟩ ∧
    fnSlotList (exRun exListRun) ⟨none, 0⟩ = (.ok (), ⟨none, 2⟩) ∧
    fnSlotList (exRun exListRun) ⟨some [5], 1⟩ = (.error .bufferTooSmall, ⟨some [5], 1⟩) ∧
    fnSlotList (exRun exListRun) ⟨some [0, 0, 5], 3⟩ = (.ok (), ⟨some [7, 9, 5], 2⟩) ∧
    fnMechList (exRun exListRun) 9 ⟨some [0, 0, 5], 3⟩ = (.ok (), ⟨some [CKM_SHA256, CKM_AES_ECB, 5], 2⟩) ∧
    fnMechList (exRun exListRun) 7 ⟨some [0, 0, 5], 3⟩ = (.error .tokenNotInitialized, ⟨some [0, 0, 5], 3⟩) := by
  refine ⟨by decide +kernel, fun m h => ?_, by decide +kernel, by decide +kernel, by decide +kernel, by decide +kernel, by decide +kernel⟩
  cases h; decide

example : ∀ p ∈ exListRun, ∀ conf, p.2 = .initialize conf → ∀ q ∈ conf, ∃ reg, q.2.mechs = registered reg := by
  intro p hp conf hc q hq
  simp only [exListRun, List.mem_cons, List.not_mem_nil, or_false] at hp
  rcases hp with rfl | rfl
  · injection hc with hc
    subst hc
    simp only [exListConf, List.mem_cons, List.not_mem_nil, or_false] at hq
    rcases hq with rfl | rfl
    · exact ⟨_, rfl⟩
    · exact ⟨_, rfl⟩
  · cases hc

end Kry
