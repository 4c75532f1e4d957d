import Verif.Model.SqlTx
import Verif.Proofs.Table
import Verif.Proofs.Kept
import Verif.Props.C27

/-!
# C28: each storage write is atomic

`C28_store`, `C28_remove`: whatever statement fails and wherever the process dies while an object is stored, changed or
removed, the table on disk is the old one, or the new one: the object's rows replaced (removed) as a whole and the rows
of all other objects as they were.  `C28_refines_store`, `C28_refines_remove`: the one-step model of the backend, on which
the histories of calls are built, is what these transactions do.
-/

namespace Kry
namespace Spec

/-- The stored object with number `id`: its rows. -/
def sqlObj (t : SqlTbl) (id : Nat) : SqlTbl := t.filter fun r => r.id = id

/-- The value stored for attribute type `a` of a list: that of the last attribute of this type that has one. -/
def lastVal (l : List Attr) (a : Nat) (v : DbVal) : Prop :=
  ∃ l₁ x l₂, l = l₁ ++ x :: l₂ ∧ x.typ = a ∧ encodeAttr x = .ok (some v) ∧
    ∀ y ∈ l₂, y.typ = a → encodeAttr y = .ok none

/-- `id` is the number of an object with unique id `uid`, or is not in use and no object has this unique id. -/
def numberFor (t : SqlTbl) (uid : Bytes) (id : Nat) : Prop :=
  ⟨id, CKA_UNIQUE_ID, .text uid⟩ ∈ t ∨ ((∀ j, ⟨j, CKA_UNIQUE_ID, .text uid⟩ ∈ t → j = 0) ∧ sqlObj t id = [])

/-- `t'` is `t` with the object `uid` replaced by (or added as) the attributes of `o`, entirely. -/
def storedIn (t t' : SqlTbl) (uid : Bytes) (o : Obj) : Prop :=
  ∃ id, numberFor t uid id ∧ (∀ j, j ≠ id → sqlObj t' j = sqlObj t j) ∧
    ∀ a v, ⟨id, a, v⟩ ∈ t' ↔ lastVal o.attrs a v

/-- `t'` is `t` without the object `uid`, if there is one. -/
def removedIn (t t' : SqlTbl) (uid : Bytes) : Prop :=
  ∃ id, numberFor t uid id ∧ (∀ j, j ≠ id → sqlObj t' j = sqlObj t j) ∧ sqlObj t' id = []

end Spec

open Spec

/-! ## Programs that change nothing before the commit that ends them -/

/-- A program that issues COMMIT only as its last act, and no BEGIN. -/
inductive Tame : SqlProg → Prop
  | done (r : Rv) : Tame (.done (.error r))
  | commit : Tame sqlCommit
  | sql (s : SqlStmt) (err : Rv) (k : Nat → SqlProg) (h1 : s ≠ .start) (h2 : s ≠ .commit) (h : ∀ a, Tame (k a)) : Tame (.sql s err k)

/-- The table that a program commits when nothing fails, from the table its transaction sees. -/
def SqlProg.final : SqlProg → SqlTbl → Option SqlTbl
  | .done _, _ => none
  | .sql .commit _ _, v => some v
  | .sql s _ k, v => (k (s.exec ⟨[], some v⟩).1).final ((s.exec ⟨[], some v⟩).2.tx.getD v)

/-- Statements inside a transaction leave the disk alone and depend on what the transaction sees only. -/
theorem exec_tx (s : SqlStmt) (h1 : s ≠ .start) (h2 : s ≠ .commit) (t v : SqlTbl) :
    s.exec ⟨t, some v⟩ = ((s.exec ⟨[], some v⟩).1, ⟨t, some ((s.exec ⟨[], some v⟩).2.tx.getD v)⟩) := by
  cases s with
  | start => exact absurd rfl h1
  | commit => exact absurd rfl h2
  | selectId uid => simp only [SqlStmt.exec]; split <;> rfl
  | deleteId id => rfl
  | maxId => rfl
  | replace row => rfl

theorem exec_tame {p : SqlProg} (h : Tame p) (fate : Nat → SqlFate) (n : Nat) (t v : SqlTbl) :
    ∃ r d, p.exec fate n ⟨t, some v⟩ = (r, ⟨d, none⟩) ∧
      (d = t ∨ p.final v = some d) ∧ (r = some (.ok ()) → p.final v = some d) ∧
      ((∀ n, fate n ≠ .fails true) → r ≠ some (.ok ()) → d = t) := by
  induction h generalizing n v with
  | done r => exact ⟨_, _, rfl, .inl rfl, nofun, fun _ _ => rfl⟩
  | commit =>
    unfold sqlCommit SqlProg.exec
    cases hf : fate n with
    | dies => exact ⟨_, _, rfl, .inl rfl, nofun, fun _ _ => rfl⟩
    | works => exact ⟨_, _, rfl, .inr rfl, fun _ => rfl, fun _ h => absurd rfl h⟩
    | fails p =>
      cases p with
      | false => exact ⟨_, _, rfl, .inl rfl, nofun, fun _ _ => rfl⟩
      | true => exact ⟨_, _, rfl, .inr rfl, nofun, fun h => absurd hf (h n)⟩
  | sql s err k h1 h2 h ih =>
    unfold SqlProg.exec
    cases hf : fate n with
    | dies => exact ⟨_, _, rfl, .inl rfl, nofun, fun _ _ => rfl⟩
    | fails p =>
      simp only
      rw [if_neg (fun c => h2 c.1)]
      exact ⟨_, _, rfl, .inl rfl, nofun, fun _ _ => rfl⟩
    | works =>
      rw [show s.exec ⟨t, some v⟩ = _ from exec_tx s h1 h2 t v]
      simp only
      have hfin : (SqlProg.sql s err k).final v = (k (s.exec ⟨[], some v⟩).1).final ((s.exec ⟨[], some v⟩).2.tx.getD v) := by
        cases s <;> first | rfl | exact absurd rfl h2
      rw [hfin]
      exact ih _ (n + 1) _

theorem tame_insert {id : Nat} {k : SqlProg} (hk : Tame k) (l : List Attr) : Tame (sqlInsert id k l) := by
  induction l with
  | nil => exact hk
  | cons a l ih =>
    unfold sqlInsert
    split
    · exact .done _
    split
    · exact .done _
    split
    · exact .done _
    · exact ih
    · exact .sql _ _ _ nofun nofun fun _ => ih

theorem tame_delete {uid : Bytes} {k : Nat → SqlProg} (hk : ∀ a, Tame (k a)) : Tame (sqlDelete uid k) := by
  refine .sql _ _ _ nofun nofun fun id => ?_
  split
  · exact .sql _ _ _ nofun nofun fun _ => hk id
  · exact hk id

theorem tame_storeObject {uid : Bytes} {o : Obj} {k : SqlProg} (hk : Tame k) : Tame (sqlStoreObject uid o k) := by
  refine tame_delete fun id => ?_
  split
  · exact .sql _ _ _ nofun nofun fun _ => tame_insert hk _
  · exact tame_insert hk _

/-! ## What is committed -/

theorem sqlObj_replace (v : SqlTbl) (row : SqlRow) (j : Nat) (h : j ≠ row.id) :
    sqlObj (v.filter (fun r => ¬ (r.id = row.id ∧ r.attr = row.attr)) ++ [row]) j = sqlObj v j := by
  unfold sqlObj
  rw [List.filter_append, List.filter_filter]
  have h1 : [row].filter (fun r => decide (r.id = j)) = [] := by
    rw [List.filter_cons_of_neg (by simpa using fun e => h e.symm)]; rfl
  rw [h1, List.append_nil]
  refine List.filter_congr fun r _ => ?_
  by_cases hj : r.id = j
  · have : r.id ≠ row.id := fun e => h (hj.symm.trans e)
    simp [hj]
    exact .inl h
  · simp [hj]

theorem final_insert {id : Nat} {l : List Attr} {v w : SqlTbl} (h : (sqlInsert id sqlCommit l).final v = some w) :
    (∀ j, j ≠ id → sqlObj w j = sqlObj v j) ∧
    ∀ a x, ⟨id, a, x⟩ ∈ w ↔ lastVal l a x ∨ (⟨id, a, x⟩ ∈ v ∧ ∀ y ∈ l, y.typ = a → encodeAttr y = .ok none) := by
  induction l generalizing v with
  | nil =>
    injection h with h
    subst h
    refine ⟨fun _ _ => rfl, fun a x => ⟨fun m => .inr ⟨m, nofun⟩, ?_⟩⟩
    rintro (⟨l1, y, l2, hl, _⟩ | h)
    · cases l1 <;> cases hl
    · exact h.1
  | cons b l ih =>
    unfold sqlInsert at h
    split at h
    · cases h
    split at h
    · cases h
    split at h
    · cases h
    · rename_i henc
      obtain ⟨i1, i2⟩ := ih h
      refine ⟨i1, fun a x => (i2 a x).trans ?_⟩
      constructor
      · rintro (⟨l1, y, l2, hl, hy⟩ | ⟨hm, hn⟩)
        · exact .inl ⟨b :: l1, y, l2, by rw [hl]; rfl, hy⟩
        · refine .inr ⟨hm, fun y hy ht => ?_⟩
          rcases List.mem_cons.1 hy with rfl | hy
          · exact henc
          · exact hn y hy ht
      · rintro (⟨l1, y, l2, hl, hy⟩ | ⟨hm, hn⟩)
        · cases l1 with
          | nil =>
            injection hl with e1 e2; subst e1; rw [henc] at hy; exact absurd hy.2.1 (by simp)
          | cons c l1 => injection hl with e1 e2; exact .inl ⟨l1, y, l2, e2, hy⟩
        · exact .inr ⟨hm, fun y hy => hn y (List.mem_cons_of_mem _ hy)⟩
    · rename_i z henc
      obtain ⟨i1, i2⟩ := ih h
      simp only [SqlStmt.exec, Option.getD_some] at i1 i2
      refine ⟨fun j hj => (i1 j hj).trans (sqlObj_replace v ⟨id, b.typ, z⟩ j hj), fun a x => (i2 a x).trans ?_⟩
      have mem : (⟨id, a, x⟩ : SqlRow) ∈ v.filter (fun r => ¬ (r.id = id ∧ r.attr = b.typ)) ++ [⟨id, b.typ, z⟩] ↔
          (⟨id, a, x⟩ ∈ v ∧ a ≠ b.typ) ∨ (a = b.typ ∧ x = z) := by
        simp [List.mem_append, List.mem_filter]
      rw [mem]
      constructor
      · rintro (⟨l1, y, l2, hl, hy⟩ | ⟨⟨hm, hne⟩ | ⟨rfl, rfl⟩, hn⟩)
        · exact .inl ⟨b :: l1, y, l2, by rw [hl]; rfl, hy⟩
        · refine .inr ⟨hm, fun y hy ht => ?_⟩
          rcases List.mem_cons.1 hy with rfl | hy
          · exact absurd ht.symm hne
          · exact hn y hy ht
        · exact .inl ⟨[], b, l, rfl, rfl, henc, hn⟩
      · rintro (⟨l1, y, l2, hl, hy⟩ | ⟨hm, hn⟩)
        · cases l1 with
          | nil =>
            injection hl with e1 e2; subst e1; subst e2
            obtain ⟨rfl, h2, h3⟩ := hy
            rw [henc] at h2
            injection h2 with h2
            injection h2 with h2
            exact .inr ⟨.inr ⟨rfl, h2.symm⟩, h3⟩
          | cons c l1 => injection hl with e1 e2; exact .inl ⟨l1, y, l2, e2, hy⟩
        · refine .inr ⟨.inl ⟨hm, fun e => ?_⟩, fun y hy => hn y (List.mem_cons_of_mem _ hy)⟩
          have := hn b (List.mem_cons_self ..) e.symm
          rw [henc] at this; cases this

/-- What the SELECT finds. -/
theorem select_found {t : SqlTbl} {uid : Bytes} {r : SqlRow}
    (h : t.find? (fun r => r.attr == CKA_UNIQUE_ID && r.val == .text uid) = some r) : ⟨r.id, CKA_UNIQUE_ID, .text uid⟩ ∈ t := by
  have h1 := List.mem_of_find?_eq_some h
  have h2 := List.find?_some h
  simp only [Bool.and_eq_true, beq_iff_eq] at h2
  obtain ⟨i, a, v⟩ := r
  obtain ⟨rfl, rfl⟩ := h2
  exact h1

theorem sqlObj_delete (t : SqlTbl) (id j : Nat) : sqlObj (t.filter fun r => r.id ≠ id) j = if j = id then [] else sqlObj t j := by
  unfold sqlObj
  rw [List.filter_filter]
  split
  · rename_i h
    subst h
    rw [List.filter_eq_nil_iff]
    intro r _
    simp
  · rename_i h
    refine List.filter_congr fun r _ => ?_
    by_cases hj : r.id = j
    · subst hj; simp [h]
    · simp [hj]

theorem sqlObj_nil {t : SqlTbl} {id : Nat} : sqlObj t id = [] ↔ ∀ a v, (⟨id, a, v⟩ : SqlRow) ∉ t := by
  unfold sqlObj
  rw [List.filter_eq_nil_iff]
  constructor
  · intro h a v hm
    exact h _ hm (by simp)
  · rintro h ⟨i, a, v⟩ hm hi
    simp only [decide_eq_true_eq] at hi
    subst hi
    exact h a v hm

theorem sqlObj_above {t : SqlTbl} {n : Nat} (h : t.foldl (fun m r => max m r.id) 0 < n) : sqlObj t n = [] := by
  rw [sqlObj_nil]
  intro a v hm
  have : ∀ (l : SqlTbl) (m : Nat), m ≤ l.foldl (fun m r => max m r.id) m ∧ ∀ r ∈ l, r.id ≤ l.foldl (fun m r => max m r.id) m := by
    intro l
    induction l with
    | nil => exact fun m => ⟨Nat.le_refl _, nofun⟩
    | cons x l ih =>
      intro m
      obtain ⟨i1, i2⟩ := ih (max m x.id)
      refine ⟨Nat.le_trans (Nat.le_max_left ..) i1, fun r hr => ?_⟩
      rcases List.mem_cons.1 hr with rfl | hr
      · exact Nat.le_trans (Nat.le_max_right ..) i1
      · exact i2 r hr
  have h2 := (this t 0).2 _ hm
  simp only at h2
  omega

/-- The table after `delete_object` and the number it returns. -/
theorem final_delete {t w : SqlTbl} {uid : Bytes} {k : Nat → SqlProg} (h : (sqlDelete uid k).final t = some w) :
    (∃ id v, id ≠ 0 ∧ ⟨id, CKA_UNIQUE_ID, .text uid⟩ ∈ t ∧ (k id).final v = some w ∧ sqlObj v id = [] ∧
      (∀ j, j ≠ id → sqlObj v j = sqlObj t j) ∧ v = t.filter fun r => r.id ≠ id) ∨
    ((k 0).final t = some w ∧ ((∀ j, ⟨j, CKA_UNIQUE_ID, .text uid⟩ ∉ t) ∨ ⟨0, CKA_UNIQUE_ID, .text uid⟩ ∈ t)) := by
  unfold sqlDelete at h
  cases hf : t.find? (fun r => r.attr == CKA_UNIQUE_ID && r.val == .text uid) with
  | none =>
    have hE : (SqlStmt.selectId uid).exec ⟨[], some t⟩ = (0, ⟨[], some t⟩) := by simp only [SqlStmt.exec, hf]
    simp only [SqlProg.final, hE, ne_eq, not_true_eq_false, if_false, Option.getD_some] at h
    refine .inr ⟨h, .inl fun j hm => ?_⟩
    have := List.find?_eq_none.1 hf _ hm
    simp at this
  | some r =>
    have hE : (SqlStmt.selectId uid).exec ⟨[], some t⟩ = (r.id, ⟨[], some t⟩) := by simp only [SqlStmt.exec, hf]
    simp only [SqlProg.final, hE, Option.getD_some] at h
    by_cases h0 : r.id = 0
    · rw [if_neg (by simpa using h0), h0] at h
      refine .inr ⟨h, .inr ?_⟩
      have := select_found hf
      rwa [h0] at this
    · rw [if_pos h0] at h
      refine .inl ⟨r.id, t.filter fun x => x.id ≠ r.id, h0, select_found hf, h, ?_, fun j hj => ?_, rfl⟩
      · rw [sqlObj_delete, if_pos rfl]
      · rw [sqlObj_delete, if_neg hj]

/-! ## The theorems -/

/-- **C28**, storing (also every change of an object, which stores it anew): from any table, whatever fails and wherever the
process dies, the table on disk is the old one or the old one with this object replaced entirely; it is the
latter when the answer is success, and the former when it is not, except if a failing COMMIT became permanent.  (`hn`:
rows are numbered from 1.) -/
theorem C28_store (t : SqlTbl) (o : Obj) (uid : Bytes) (hu : o.getStr CKA_UNIQUE_ID = .ok uid) (hn : sqlObj t 0 = [])
    (fate : Nat → SqlFate) :
    ∃ r d, (sqlStore o).exec fate 0 ⟨t, none⟩ = (r, ⟨d, none⟩) ∧ (d = t ∨ storedIn t d uid o) ∧
      (r = some (.ok ()) → storedIn t d uid o) ∧ ((∀ n, fate n ≠ .fails true) → r ≠ some (.ok ()) → d = t) := by
  have key : ∀ w, (sqlStoreObject uid o sqlCommit).final t = some w → storedIn t w uid o := by
    intro w hw
    have add : ∀ (id : Nat) (v : SqlTbl), numberFor t uid id → sqlObj v id = [] → (∀ j, j ≠ id → sqlObj v j = sqlObj t j) →
        (sqlInsert id sqlCommit o.attrs).final v = some w → storedIn t w uid o := by
      intro id v h1 h2 h3 h4
      obtain ⟨i1, i2⟩ := final_insert h4
      refine ⟨id, h1, fun j hj => (i1 j hj).trans (h3 j hj), fun a x => (i2 a x).trans ⟨?_, .inl⟩⟩
      rintro (h | ⟨h, _⟩)
      · exact h
      · exact absurd h (sqlObj_nil.1 h2 a x)
    rcases final_delete hw with ⟨id, v, h0, hm, hk, h1, h2, _⟩ | ⟨hk, hu⟩
    · rw [if_neg h0] at hk
      exact add id v (.inl hm) h1 h2 hk
    · rw [if_pos rfl] at hk
      simp only [SqlProg.final, SqlStmt.exec, Option.getD_some] at hk
      have fresh : sqlObj t (t.foldl (fun m r => max m r.id) 0 + 1) = [] := sqlObj_above (Nat.lt_succ_self _)
      refine add _ t (.inr ⟨fun j hj => ?_, fresh⟩) fresh (fun _ _ => rfl) hk
      rcases hu with hu | hu
      · exact absurd hj (hu j)
      · exact absurd hu (sqlObj_nil.1 hn _ _)
  unfold sqlStore
  simp only [hu]
  unfold SqlProg.exec
  cases hf : fate 0 with
  | dies => exact ⟨_, _, rfl, .inl rfl, nofun, fun _ _ => rfl⟩
  | fails p =>
    simp only
    rw [if_neg (fun c => nomatch c.1)]
    exact ⟨_, _, rfl, .inl rfl, nofun, fun _ _ => rfl⟩
  | works =>
    obtain ⟨r, d, h1, h2, h3, h4⟩ := exec_tame (tame_storeObject (uid := uid) (o := o) .commit) fate 1 t t
    exact ⟨r, d, h1, h2.imp_right (key d), fun h => key d (h3 h), h4⟩

/-- **C28**, removing. -/
theorem C28_remove (t : SqlTbl) (uid : Bytes) (hn : sqlObj t 0 = []) (fate : Nat → SqlFate) :
    ∃ r d, (sqlRemove uid).exec fate 0 ⟨t, none⟩ = (r, ⟨d, none⟩) ∧ (d = t ∨ removedIn t d uid) ∧
      (r = some (.ok ()) → removedIn t d uid) ∧ ((∀ n, fate n ≠ .fails true) → r ≠ some (.ok ()) → d = t) := by
  have key : ∀ w, (sqlDelete uid fun _ => sqlCommit).final t = some w → removedIn t w uid := by
    intro w hw
    rcases final_delete hw with ⟨id, v, h0, hm, hk, h1, h2, _⟩ | ⟨hk, hu⟩
    · injection hk with hk
      subst hk
      exact ⟨id, .inl hm, h2, h1⟩
    · injection hk with hk
      subst hk
      refine ⟨0, .inr ⟨fun j hj => ?_, hn⟩, fun _ _ => rfl, hn⟩
      rcases hu with hu | hu
      · exact absurd hj (hu j)
      · exact absurd hu (sqlObj_nil.1 hn _ _)
  unfold sqlRemove SqlProg.exec
  cases hf : fate 0 with
  | dies => exact ⟨_, _, rfl, .inl rfl, nofun, fun _ _ => rfl⟩
  | fails p =>
    simp only
    rw [if_neg (fun c => nomatch c.1)]
    exact ⟨_, _, rfl, .inl rfl, nofun, fun _ _ => rfl⟩
  | works =>
    obtain ⟨r, d, h1, h2, h3, h4⟩ := exec_tame (tame_delete (uid := uid) (k := fun _ => sqlCommit) fun _ => .commit) fate 1 t t
    exact ⟨r, d, h1, h2.imp_right (key d), fun h => key d (h3 h), h4⟩

/-! ## The one-step model is what the transactions do -/

/-- A row without its number. -/
def SqlRow.pair (r : SqlRow) : Nat × DbVal := (r.attr, r.val)

/-- The grouped table `g` of `Verif.Model.Sqlite` stands for the table `t`: same rows, in the same order within an object. -/
def groups (t : SqlTbl) (g : ObjTable) : Prop := ∀ id, (sqlObj t id).map SqlRow.pair = (AMap.get g id).getD []

/-- Groups are not empty and numbered from 1. -/
def Full (g : ObjTable) : Prop := ∀ x ∈ g, x.2 ≠ [] ∧ x.1 ≠ 0

/-- The answer of a program when nothing fails. -/
def SqlProg.ans : SqlProg → SqlTbl → Res Unit
  | .done r, _ => r
  | .sql .commit _ k, v => (k 0).ans v
  | .sql s _ k, v => (k (s.exec ⟨[], some v⟩).1).ans ((s.exec ⟨[], some v⟩).2.tx.getD v)

theorem exec_ans {p : SqlProg} (h : Tame p) {fate : Nat → SqlFate} (hf : ∀ n, fate n = .works) (n : Nat) (t v : SqlTbl) :
    (p.exec fate n ⟨t, some v⟩).1 = some (p.ans v) := by
  induction h generalizing n v with
  | done r => rfl
  | commit => unfold sqlCommit SqlProg.exec; rw [hf]; rfl
  | sql s err k h1 h2 h ih =>
    unfold SqlProg.exec
    rw [hf]
    simp only
    rw [show s.exec ⟨t, some v⟩ = _ from exec_tx s h1 h2 t v]
    simp only
    have hfin : (SqlProg.sql s err k).ans v = (k (s.exec ⟨[], some v⟩).1).ans ((s.exec ⟨[], some v⟩).2.tx.getD v) := by
      cases s <;> first | rfl | exact absurd rfl h2
    rw [hfin]
    exact ih _ (n + 1) _

/-- COMMIT is reached exactly when the answer is success. -/
theorem ans_final {p : SqlProg} (h : Tame p) (v : SqlTbl) : p.ans v = .ok () ↔ ∃ w, p.final v = some w := by
  induction h generalizing v with
  | done r => exact ⟨nofun, fun ⟨_, h⟩ => by cases h⟩
  | commit => exact ⟨fun _ => ⟨_, rfl⟩, fun _ => rfl⟩
  | sql s err k h1 h2 h ih =>
    have e1 : (SqlProg.sql s err k).ans v = (k (s.exec ⟨[], some v⟩).1).ans ((s.exec ⟨[], some v⟩).2.tx.getD v) := by
      cases s <;> first | rfl | exact absurd rfl h2
    have e2 : (SqlProg.sql s err k).final v = (k (s.exec ⟨[], some v⟩).1).final ((s.exec ⟨[], some v⟩).2.tx.getD v) := by
      cases s <;> first | rfl | exact absurd rfl h2
    rw [e1, e2]; exact ih _ _

theorem pairs_replace (v : SqlTbl) (id a : Nat) (x : DbVal) :
    (sqlObj (v.filter (fun r => ¬ (r.id = id ∧ r.attr = a)) ++ [⟨id, a, x⟩]) id).map SqlRow.pair =
      putRow ((sqlObj v id).map SqlRow.pair) a x := by
  unfold sqlObj putRow
  rw [List.filter_append, List.map_append, List.filter_filter, List.filter_map]
  congr 1
  · rw [List.filter_filter]
    congr 1
    refine List.filter_congr fun r _ => ?_
    by_cases hj : r.id = id
    · simp only [hj, SqlRow.pair, Function.comp]; by_cases ha : r.attr = a <;> simp [ha]
    · simp [hj]
  · simp [SqlRow.pair]

/-- The insertion loop. -/
theorem insert_rows_ans {id : Nat} (hid : id < 2 ^ 31) {l : List Attr} {v : SqlTbl} :
    (sqlInsert id sqlCommit l).ans v = (putRows ((sqlObj v id).map SqlRow.pair) l).map (fun _ => ()) ∧
    ∀ w, (sqlInsert id sqlCommit l).final v = some w → putRows ((sqlObj v id).map SqlRow.pair) l = .ok ((sqlObj w id).map SqlRow.pair) := by
  induction l generalizing v with
  | nil =>
    refine ⟨rfl, fun w h => ?_⟩
    injection h with h
    subst h
    rfl
  | cons a l ih =>
    unfold sqlInsert putRows
    rw [if_neg (by simpa using hid)]
    by_cases ht : a.typ < 2 ^ 32
    · rw [if_neg (by simpa using ht), if_neg (by simpa using ht)]
      cases he : encodeAttr a with
      | error r => exact ⟨rfl, nofun⟩
      | ok y =>
        cases y with
        | none => exact ih
        | some x =>
          simp only [SqlProg.ans, SqlProg.final, SqlStmt.exec, Option.getD_some]
          rw [← pairs_replace]
          exact ih
    · rw [if_pos (by simpa using ht), if_pos (by simpa using ht)]
      exact ⟨rfl, nofun⟩

theorem groups_mem {t : SqlTbl} {g : ObjTable} (h : groups t g) {id a : Nat} {x : DbVal} :
    ⟨id, a, x⟩ ∈ t ↔ (a, x) ∈ (AMap.get g id).getD [] := by
  rw [← h id]
  unfold sqlObj
  simp only [List.mem_map, List.mem_filter]
  constructor
  · intro hm; exact ⟨_, ⟨hm, by simp⟩, rfl⟩
  · rintro ⟨⟨i, b, y⟩, ⟨h1, h2⟩, h3⟩
    simp only [decide_eq_true_eq] at h2
    injection h3 with e1 e2
    simp only at e1 e2
    subst h2; subst e1; subst e2
    exact h1

theorem groups_find {t : SqlTbl} {g : ObjTable} (h : groups t g) (ok : TblOk g) (id : Nat) (uid : Bytes) :
    findId g uid = some id ↔ ⟨id, CKA_UNIQUE_ID, .text uid⟩ ∈ t := by
  rw [groups_mem h]
  constructor
  · intro hf
    obtain ⟨rows, hm, hr⟩ := findId_some hf
    rw [AMap.get_of_mem ok.ids hm]
    exact (AMap.mem_iff_get (ok.rows _ hm)).2 ((hasRow_get (ok.rows _ hm)).1 hr)
  · intro hm
    cases hg : AMap.get g id with
    | none => rw [hg] at hm; cases hm
    | some rows =>
      rw [hg] at hm
      have hmem : (id, rows) ∈ g := (AMap.mem_iff_get ok.ids).2 hg
      have hr : hasRow rows CKA_UNIQUE_ID (.text uid) = true := by
        unfold hasRow
        exact List.any_eq_true.2 ⟨_, hm, by simp⟩
      cases hf : findId g uid with
      | none => have := findId_none hf _ hmem; rw [hr] at this; cases this
      | some j =>
        obtain ⟨rows', hm', hr'⟩ := findId_some hf
        have := ok.uids _ hm' _ hmem uid hr' hr
        injection this with e1 e2
        rw [e1]

theorem foldMax_le {α : Type} (f : α → Nat) (l : List α) (m n : Nat) (hm : m ≤ n) (h : ∀ x ∈ l, f x ≤ n) :
    l.foldl (fun m x => max m (f x)) m ≤ n := by
  induction l generalizing m with
  | nil => exact hm
  | cons x l ih =>
    exact ih _ (Nat.max_le.2 ⟨hm, h x (List.mem_cons_self ..)⟩) fun y hy => h y (List.mem_cons_of_mem _ hy)

theorem groups_max {t : SqlTbl} {g : ObjTable} (h : groups t g) (ok : TblOk g) (full : Full g) :
    t.foldl (fun m r => max m r.id) 0 = maxId g := by
  apply Nat.le_antisymm
  · refine foldMax_le SqlRow.id t 0 _ (Nat.zero_le _) fun r hr => ?_
    have hm := (groups_mem h (id := r.id) (a := r.attr) (x := r.val)).1 hr
    cases hg : AMap.get g r.id with
    | none => rw [hg] at hm; cases hm
    | some rows => exact le_maxId _ ((AMap.mem_iff_get ok.ids).2 hg)
  · refine foldMax_le Prod.fst g 0 _ (Nat.zero_le _) fun x hx => ?_
    apply Nat.not_lt.1
    intro hlt
    have := h x.1
    rw [sqlObj_above hlt, AMap.get_of_mem ok.ids (show (x.1, x.2) ∈ g from hx)] at this
    exact (full x hx).1 this.symm

theorem get_insertGroup {g : ObjTable} {id j : Nat} {rows : List (Nat × DbVal)} (hn : AMap.get g id = none) :
    AMap.get (insertGroup (id, rows) g) j = if id = j then some rows else AMap.get g j := by
  induction g with
  | nil => simp [insertGroup, AMap.get_cons]
  | cons x g ih =>
    obtain ⟨k, w⟩ := x
    have hk : k ≠ id := by
      intro e; rw [AMap.get_cons] at hn; rw [if_pos e] at hn; cases hn
    have hn' : AMap.get g id = none := by rwa [AMap.get_cons, if_neg hk] at hn
    unfold insertGroup
    split
    · rw [AMap.get_cons]
    · rw [AMap.get_cons, ih hn', AMap.get_cons]
      by_cases h1 : k = j
      · rw [if_pos h1, if_pos h1, if_neg (fun e => hk (h1.trans e.symm))]
      · rw [if_neg h1, if_neg h1]

/-- `delete_object` on both sides. -/
theorem groups_delete {t : SqlTbl} {g : ObjTable} (h : groups t g) (ok : TblOk g) (id : Nat) :
    groups (t.filter fun r => r.id ≠ id) (deleteId g id) := by
  intro j
  rw [sqlObj_delete]
  unfold deleteId
  rw [AMap.get_filter _ ok.ids]
  by_cases hj : j = id
  · subst hj
    rw [if_pos rfl]
    cases AMap.get g j <;> simp [Option.filter]
  · rw [if_neg hj, h j]
    cases AMap.get g j <;> simp [Option.filter, hj]

theorem full_delete {g : ObjTable} (full : Full g) (id : Nat) : Full (deleteId g id) :=
  fun x hx => full x (List.mem_filter.1 hx).1

/-- Adding the rows of an object. -/
theorem groups_insert {t w : SqlTbl} {g : ObjTable} (h : groups t g) (full : Full g) {id : Nat} (h0 : id ≠ 0)
    (hg : AMap.get g id = none) (hid : id < 2 ^ 31) {l : List Attr} (hw : (sqlInsert id sqlCommit l).final t = some w) :
    ∃ rows, putRows [] l = .ok rows ∧
      (match rows with
        | [] => groups w g ∧ Full g
        | rows => groups w (insertGroup (id, rows) g) ∧ Full (insertGroup (id, rows) g)) := by
  have e0 : (sqlObj t id).map SqlRow.pair = [] := by rw [h id, hg]; rfl
  have h1 := (insert_rows_ans hid).2 w hw
  rw [e0] at h1
  refine ⟨_, h1, ?_⟩
  have hw2 := (final_insert hw).1
  generalize hr : (sqlObj w id).map SqlRow.pair = rows
  cases rows with
  | nil =>
    refine ⟨fun j => ?_, full⟩
    by_cases hj : j = id
    · subst hj; rw [hr, hg]; rfl
    · rw [hw2 j hj]; exact h j
  | cons x rows =>
    refine ⟨fun j => ?_, fun y hy => ?_⟩
    · rw [get_insertGroup hg]
      by_cases hj : j = id
      · subst hj; rw [if_pos rfl, hr]; rfl
      · rw [if_neg fun e => hj e.symm, hw2 j hj]; exact h j
    · rcases mem_insertGroup.1 hy with rfl | hy
      · exact ⟨by simp, h0⟩
      · exact full y hy

/-- What the two transactions find. -/
theorem select_groups {t : SqlTbl} {g : ObjTable} (h : groups t g) (ok : TblOk g) (uid : Bytes) :
    ((SqlStmt.selectId uid).exec ⟨[], some t⟩) = ((findId g uid).getD 0, ⟨[], some t⟩) := by
  simp only [SqlStmt.exec]
  cases hf : t.find? (fun r => r.attr == CKA_UNIQUE_ID && r.val == .text uid) with
  | none =>
    cases hg : findId g uid with
    | none => rfl
    | some id =>
      have := List.find?_eq_none.1 hf _ ((groups_find h ok id uid).1 hg)
      simp at this
  | some r =>
    rw [(groups_find h ok r.id uid).2 (select_found hf)]
    rfl

theorem tx_groups {t : SqlTbl} {g : ObjTable} (h : groups t g) (ok : TblOk g) (full : Full g) (uid : Bytes) (o : Obj)
    (hmax : maxId g + 1 < 2 ^ 31) :
    (sqlStoreObject uid o sqlCommit).ans t = (storeObject g uid o).map (fun _ => ()) ∧
    ∀ w, (sqlStoreObject uid o sqlCommit).final t = some w → ∃ g', storeObject g uid o = .ok g' ∧ groups w g' ∧ Full g' := by
  unfold sqlStoreObject sqlDelete storeObject deleteObject
  simp only [SqlProg.ans, SqlProg.final, select_groups h ok, Option.getD_some]
  have fin : ∀ (id : Nat) (v : SqlTbl) (g1 : ObjTable), groups v g1 → Full g1 → id ≠ 0 → AMap.get g1 id = none → id < 2 ^ 31 →
      (sqlInsert id sqlCommit o.attrs).ans v =
        (match putRows [] o.attrs with
          | .error e => (.error e : Res ObjTable)
          | .ok [] => .ok g1
          | .ok rows => .ok (insertGroup (id, rows) g1)).map (fun _ => ()) ∧
      ∀ w, (sqlInsert id sqlCommit o.attrs).final v = some w → ∃ g',
        (match putRows [] o.attrs with
          | .error e => (.error e : Res ObjTable)
          | .ok [] => .ok g1
          | .ok rows => .ok (insertGroup (id, rows) g1)) = .ok g' ∧ groups w g' ∧ Full g' := by
    intro id v g1 hg hf h0 hn hid
    have e0 : (sqlObj v id).map SqlRow.pair = [] := by rw [hg id, hn]; rfl
    refine ⟨?_, fun w hw => ?_⟩
    · rw [(insert_rows_ans hid).1, e0]
      cases putRows [] o.attrs with
      | error e => rfl
      | ok rows => cases rows <;> rfl
    · obtain ⟨rows, hr, hm⟩ := groups_insert hg hf h0 hn hid hw
      rw [hr]
      cases rows with
      | nil => exact ⟨_, rfl, hm⟩
      | cons x rows => exact ⟨_, rfl, hm⟩
  cases hf : findId g uid with
  | none =>
    simp only [Option.getD_none, ne_eq, not_true_eq_false, if_false, if_true, SqlProg.ans, SqlProg.final, SqlStmt.exec, Option.getD_some]
    rw [groups_max h ok full]
    refine fin _ t g h full (by omega) ?_ hmax
    cases hg : AMap.get g (maxId g + 1) with
    | none => rfl
    | some rows =>
      have := le_maxId _ ((AMap.mem_iff_get ok.ids).2 hg)
      simp only at this
      omega
  | some id =>
    obtain ⟨rows, hm, _⟩ := findId_some hf
    have h0 : id ≠ 0 := (full _ hm).2
    have hle : id ≤ maxId g := le_maxId _ hm
    simp only [Option.getD_some, if_pos h0, if_neg h0, SqlProg.ans, SqlProg.final, SqlStmt.exec]
    refine fin id _ _ (groups_delete h ok id) (full_delete full id) h0 ?_ (by omega)
    unfold deleteId
    rw [AMap.get_filter _ ok.ids]
    cases AMap.get g id <;> simp

/-- The one-step `store_obj` of `Verif.Model.Sqlite` is what the transaction does: whatever happens at its statements (a
failing COMMIT that becomes permanent excepted), there is an environment in which the one-step function has the same
effect and, unless the process died, the same answer; it is a quiet one if all statements work. -/
theorem C28_refines_store (t : SqlTbl) (db : Db) (h : groups t db.objs) (ok : TblOk db.objs) (full : Full db.objs) (o : Obj)
    (hmax : maxId db.objs + 1 < 2 ^ 31) (fate : Nat → SqlFate) (hp : ∀ n, fate n ≠ .fails true) :
    ∃ r d e, (sqlStore o).exec fate 0 ⟨t, none⟩ = (r, ⟨d, none⟩) ∧ groups d (db.storeObj e o).2.objs ∧
      Full (db.storeObj e o).2.objs ∧ (r = none ∨ r = some (db.storeObj e o).1) ∧ ((∀ n, fate n = .works) → ∀ p, e.fault p = none) := by
  unfold sqlStore Db.storeObj
  cases hu : o.getStr CKA_UNIQUE_ID with
  | error r => exact ⟨_, _, ⟨fun _ => none, fun _ => [], fun _ => []⟩, rfl, h, full, .inr rfl, fun _ _ => rfl⟩
  | ok uid =>
    simp only
    have bad : ∀ x : Rv, ∃ e : Env, e.fails = some x := fun x => ⟨⟨fun _ => some x, fun _ => [], fun _ => []⟩, rfl⟩
    unfold SqlProg.exec
    cases hf : fate 0 with
    | dies =>
      obtain ⟨e, he⟩ := bad .deviceMemory
      refine ⟨_, _, e, rfl, ?_⟩
      rw [he]
      exact ⟨h, full, .inl rfl, fun hw => absurd ((hw 0).symm.trans hf) nofun⟩
    | fails p =>
      obtain ⟨e, he⟩ := bad .deviceMemory
      simp only
      rw [if_neg (fun c => nomatch c.1)]
      refine ⟨_, _, e, rfl, ?_⟩
      rw [he]
      exact ⟨h, full, .inr rfl, fun hw => absurd ((hw 0).symm.trans hf) nofun⟩
    | works =>
      obtain ⟨s1, s2⟩ := tx_groups h ok full uid o hmax
      have tame := tame_storeObject (uid := uid) (o := o) .commit
      obtain ⟨r, d, h1, h2, h3, h4⟩ := exec_tame tame fate 1 t t
      have hans := fun hw => exec_ans tame (fate := fate) hw 1 t t
      simp only [SqlStmt.exec]
      rw [h1] at hans
      by_cases hr : r = some (.ok ())
      · obtain ⟨g', k1, k2, k3⟩ := s2 d (h3 hr)
        refine ⟨r, d, ⟨fun _ => none, fun _ => [], fun _ => []⟩, h1, ?_⟩
        simp only [Env.fails, k1]
        exact ⟨k2, k3, .inr hr, fun _ _ => trivial⟩
      · have hd := h4 hp hr
        subst hd
        by_cases hw : ∀ n, fate n = .works
        · have := hans hw
          rw [s1] at this
          refine ⟨r, _, ⟨fun _ => none, fun _ => [], fun _ => []⟩, h1, ?_⟩
          simp only [Env.fails]
          cases hs : storeObject db.objs uid o with
          | ok g' => rw [hs] at this; exact absurd this hr
          | error x => rw [hs] at this; exact ⟨h, full, .inr this, fun _ _ => trivial⟩
        · cases r with
          | none =>
            obtain ⟨e, he⟩ := bad .deviceMemory
            refine ⟨_, _, e, h1, ?_⟩
            rw [he]
            exact ⟨h, full, .inl rfl, fun hw' => absurd hw' hw⟩
          | some r =>
            cases r with
            | ok _ => exact absurd rfl hr
            | error x =>
              obtain ⟨e, he⟩ := bad x
              refine ⟨_, _, e, h1, ?_⟩
              rw [he]
              exact ⟨h, full, .inr rfl, fun hw' => absurd hw' hw⟩

/-- The same for `remove_by_uid`. -/
theorem C28_refines_remove (t : SqlTbl) (db : Db) (h : groups t db.objs) (ok : TblOk db.objs) (full : Full db.objs) (uid : Bytes)
    (fate : Nat → SqlFate) (hp : ∀ n, fate n ≠ .fails true) :
    ∃ r d e, (sqlRemove uid).exec fate 0 ⟨t, none⟩ = (r, ⟨d, none⟩) ∧ groups d (db.removeByUid e uid).2.objs ∧
      Full (db.removeByUid e uid).2.objs ∧ (r = none ∨ r = some (db.removeByUid e uid).1) ∧
      ((∀ n, fate n = .works) → ∀ p, e.fault p = none) := by
  have bad : ∀ x : Rv, ∃ e : Env, e.fails = some x := fun x => ⟨⟨fun _ => some x, fun _ => [], fun _ => []⟩, rfl⟩
  have tame := tame_delete (uid := uid) (k := fun _ => sqlCommit) fun _ => .commit
  have hfin : (sqlDelete uid fun _ => sqlCommit).ans t = .ok () ∧ ∀ w, (sqlDelete uid fun _ => sqlCommit).final t = some w →
      groups w (deleteObject db.objs uid) ∧ Full (deleteObject db.objs uid) := by
    unfold sqlDelete deleteObject
    simp only [SqlProg.ans, SqlProg.final, select_groups h ok, Option.getD_some]
    cases hf : findId db.objs uid with
    | none =>
      simp only [Option.getD_none, ne_eq, not_true_eq_false, if_false]
      refine ⟨rfl, fun w hw => ?_⟩
      injection hw with hw
      subst hw
      exact ⟨h, full⟩
    | some id =>
      obtain ⟨rows, hm, _⟩ := findId_some hf
      have h0 : id ≠ 0 := (full _ hm).2
      simp only [Option.getD_some, if_pos h0]
      refine ⟨rfl, fun w hw => ?_⟩
      injection hw with hw
      subst hw
      exact ⟨groups_delete h ok id, full_delete full id⟩
  unfold sqlRemove Db.removeByUid SqlProg.exec
  cases hf : fate 0 with
  | dies =>
    obtain ⟨e, he⟩ := bad .deviceMemory
    refine ⟨_, _, e, rfl, ?_⟩
    rw [he]
    exact ⟨h, full, .inl rfl, fun hw => absurd ((hw 0).symm.trans hf) nofun⟩
  | fails p =>
    obtain ⟨e, he⟩ := bad .deviceMemory
    simp only
    rw [if_neg (fun c => nomatch c.1)]
    refine ⟨_, _, e, rfl, ?_⟩
    rw [he]
    exact ⟨h, full, .inr rfl, fun hw => absurd ((hw 0).symm.trans hf) nofun⟩
  | works =>
    obtain ⟨r, d, h1, h2, h3, h4⟩ := exec_tame tame fate 1 t t
    have hans := fun hw => exec_ans tame (fate := fate) hw 1 t t
    simp only [SqlStmt.exec]
    rw [h1] at hans
    by_cases hr : r = some (.ok ())
    · refine ⟨r, d, ⟨fun _ => none, fun _ => [], fun _ => []⟩, h1, ?_⟩
      obtain ⟨k1, k2⟩ := hfin.2 d (h3 hr)
      exact ⟨k1, k2, .inr hr, fun _ _ => rfl⟩
    · have hd := h4 hp hr
      subst hd
      have nw : ¬ ∀ n, fate n = .works := fun hw => hr ((hans hw).trans (by rw [hfin.1]))
      cases r with
      | none =>
        obtain ⟨e, he⟩ := bad .deviceMemory
        refine ⟨_, _, e, h1, ?_⟩
        rw [he]
        exact ⟨h, full, .inl rfl, fun hw' => absurd hw' nw⟩
      | some r =>
        cases r with
        | ok _ => exact absurd rfl hr
        | error x =>
          obtain ⟨e, he⟩ := bad x
          refine ⟨_, _, e, h1, ?_⟩
          rw [he]
          exact ⟨h, full, .inr rfl, fun hw' => absurd hw' nw⟩

/-! ## Calls -/

section Calls
variable {M : Mechs} {C : Crypto} {O : Oracle}

/-- Only the rows of `u` differ, and none if the answer is an error. -/
def OneRow (a b : ObjTable) (bad : Bool) : Prop := (∃ u, ∀ v, v ≠ u → rowsOf b v = rowsOf a v) ∧ (bad = true → b = a)

theorem OneRow.same (a : ObjTable) (bad : Bool) : OneRow a a bad := ⟨⟨[], fun _ _ => rfl⟩, fun _ => rfl⟩

theorem insert_err {e : Env} {k : Nat} {a : Token} {o : Obj} (hz : Zero o) {r : Rv} (h : (a.insertObject C e k o).1 = .error r) :
    (a.insertObject C e k o).2.store.db.objs = a.store.db.objs := by
  unfold Token.insertObject at h ⊢
  split at h
  · rename_i ht
    rw [if_pos ht]
    split at h
    · rename_i hl; rw [if_pos hl]
    · rename_i hl
      rw [if_neg hl]
      rcases store_shape (C := C) e a.store a.handles o hz.handle with
        ⟨r, h'⟩ | ⟨F, uid, x, hF, huid, hx, ⟨r, _, h'⟩ | ⟨hins, r, hr, h'⟩⟩
      · simp only [h']
      · simp only [h']
      · simp only [h'] at h ⊢
        cases r with
        | ok _ => cases h
        | error r =>
          unfold Db.storeObj at hr ⊢
          split
          · rfl
          · split
            · rfl
            · split
              · rfl
              · simp_all
  · rename_i ht
    rw [if_neg ht]
    simp only
    repeat' split
    all_goals rfl

theorem insert_one {e : Env} {k : Nat} {a : Token} {o : Obj} (hz : Zero o) (ok : TblOk a.store.db.objs) :
    OneRow a.store.db.objs (a.insertObject C e k o).2.store.db.objs (refusal (Out.ofHandle (a.insertObject C e k o).1)) := by
  refine ⟨?_, fun h => ?_⟩
  · cases hu : o.getStr CKA_UNIQUE_ID with
    | error r => exact ⟨[], fun v _ => insert_rows e hz (by rw [hu]; nofun) ok⟩
    | ok u => exact ⟨u, fun v hv => insert_rows e hz (by rw [hu]; intro e; injection e with e; exact hv e.symm) ok⟩
  · cases hr : (a.insertObject C e k o).1 with
    | error r => exact insert_err hz hr
    | ok n => rw [hr] at h; cases h

theorem destroy_one {e : Env} {a : Token} {n : Nat} (ok : TblOk a.store.db.objs) :
    OneRow a.store.db.objs (a.destroyObject C e n).2.store.db.objs (refusal (Out.of (a.destroyObject C e n).1)) := by
  refine ⟨?_, fun h => ?_⟩
  · cases hg : a.handles.get n with
    | none => exact ⟨[], fun v _ => destroy_rows e n ok (by rw [hg]; nofun)⟩
    | some u => exact ⟨u, fun v hv => destroy_rows e n ok (by rw [hg]; intro e; injection e with e; exact hv e.symm)⟩
  · revert h
    unfold Token.destroyObject
    repeat' split
    all_goals first | (intro _; rfl) | (intro h; cases h)

theorem setAttrs_one {e : Env} {a : Token} {n : Nat} {tm : Template} (ok : TblOk a.store.db.objs) :
    OneRow a.store.db.objs (a.setObjectAttrs C e n tm).2.store.db.objs (refusal (Out.of (a.setObjectAttrs C e n tm).1)) := by
  refine ⟨?_, fun h => ?_⟩
  · cases hg : a.handles.get n with
    | none => exact ⟨[], fun v _ => setAttrs_rows e n tm ok (by rw [hg]; nofun)⟩
    | some u => exact ⟨u, fun v hv => setAttrs_rows e n tm ok (by rw [hg]; intro e; injection e with e; exact hv e.symm)⟩
  · revert h
    unfold Token.setObjectAttrs
    split
    · split
      · intro _; rfl
      · intro _; rfl
    split
    · intro _; rfl
    split
    · intro _; rfl
    split
    · intro _; rfl
    split
    · intro _; rfl
    split
    · intro _; rfl
    simp only [Store.update]
    split
    · intro _; rfl
    split
    · intro _; rfl
    split
    · intro _; rfl
    split
    · intro _; rfl
    split
    · intro _; rfl
    simp only [Db.storeObj]
    split
    · intro _; rfl
    split
    · intro _; rfl
    split
    · intro _; rfl
    · intro h; cases h

theorem OneRow.of_eq {a a' b : ObjTable} {bad : Bool} (h : OneRow a b bad) (e : a' = a) : OneRow a' b bad := e ▸ h

/-- The calls that write one object. -/
def Spec.writesOne : SCall → Bool
  | .createObject _ | .copyObject _ _ | .setAttr _ _ | .destroyObject _ => true
  | _ => false

theorem sess_one {e : Env} {h : Nat} {c : SCall} (hc : writesOne c = true) {x : Session} {t : Token} (ok : TblOk t.store.db.objs)
    (hdd : t.cfg.dedup = none) :
    OneRow t.store.db.objs (sessStep C O e h c x t).2.2.store.db.objs (refusal (sessStep C O e h c x t).1) := by
  have same := OneRow.same t.store.db.objs
  cases c with
  | createObject tm =>
    simp only [sessStep, fnCreate]
    split
    · exact same _
    split
    · exact same _
    unfold Token.createObject
    split
    · exact same _
    rename_i o ho
    have hz := zero_create ho
    split
    · split
      · exact same _
      · obtain ⟨c1, c2, c3⟩ := checkDedup_store (C := C) (e.sub 1) o hdd
        generalize t.checkDedup C (e.sub 1) o = p at c1 c2 c3 ⊢
        obtain ⟨r, t0⟩ := p
        simp only at c1
        rw [← c1]
        rcases r with r | _ | n'
        · exact .same _ _
        · exact insert_one hz (by rw [c1]; exact ok)
        · exact absurd rfl (c3 n')
    · exact insert_one hz ok
  | copyObject n tm =>
    simp only [sessStep, fnCopy]
    split
    · exact same _
    split
    · exact same _
    unfold Token.copyObject
    simp only
    split
    · exact same _
    split
    · exact same _
    rename_i o' ho o2 hcp
    exact insert_one (zero_copy hcp) ok
  | setAttr n tm =>
    simp only [sessStep, fnSetAttr]
    split
    · exact same _
    split
    · exact same _
    split
    · exact same _
    split
    · exact same _
    exact setAttrs_one ok
  | destroyObject n =>
    simp only [sessStep, fnDestroy]
    split
    · exact same _
    split
    · exact same _
    split
    · exact same _
    exact destroy_one ok
  | _ => cases hc

/-- **C28** for the calls that write one object: whatever fails in the call, at most one stored object, on one token, is
different afterwards, and none if the call answers an error. -/
theorem C28_call (d : List (Nat × Db)) (hd : ∀ p ∈ d, TblOk p.2.objs) (tr : Trace) (hm : ∀ p ∈ tr, noMerge p.2) (e : Env) (h : Nat)
    (c : SCall) (hc : writesOne c = true) :
    (∃ i u, ∀ j v, (j, v) ≠ (i, u) →
      rowsOf (dbAt (step M C O e (after M C O d tr) (.sess h c)).2 j).objs v = rowsOf (dbAt (after M C O d tr) j).objs v) ∧
    (refusal (step M C O e (after M C O d tr) (.sess h c)).1 = true →
      ∀ j, (dbAt (step M C O e (after M C O d tr) (.sess h c)).2 j).objs = (dbAt (after M C O d tr) j).objs) := by
  have ht : TInv (after M C O d tr) := tinv_reach M O hd tr
  have hn : ∀ i sl, AMap.get (after M C O d tr).slots i = some sl → sl.token.cfg.dedup = none :=
    noDedup_run tr (inv_empty d 0) hm (fun i sl h => by cases h)
  generalize after M C O d tr = s at ht hn ⊢
  cases hg : s.getSession h with
  | error r => simp only [step, hg]; exact ⟨⟨0, [], fun _ _ _ => trivial⟩, fun _ _ => trivial⟩
  | ok y =>
    obtain ⟨i, sl, x⟩ := y
    obtain ⟨_, _, hs, hx⟩ := getSession_ok hg
    simp only [step, hg]
    obtain ⟨⟨u, h1⟩, h2⟩ := sess_one (C := C) (O := O) (e := e) (h := h) hc (x := x) (ht.slots i sl hs) (hn i sl hs)
    generalize sessStep C O e h c x sl.token = y at h1 h2 ⊢
    obtain ⟨o, x', t'⟩ := y
    simp only at h1 h2 ⊢
    have at' : ∀ j, j ≠ i → dbAt (s.setSlot i ⟨t', AMap.modify sl.sessions h fun _ => x'⟩) j = dbAt s j := by
      intro j hj
      unfold dbAt
      rw [get_setSlot_ne (fun e => hj e.symm)]
      rfl
    refine ⟨⟨i, u, fun j v hne => ?_⟩, fun hr j => ?_⟩
    · by_cases hj : j = i
      · subst hj
        rw [dbAt_some ((get_setSlot hs).trans (if_pos rfl)), dbAt_some hs]
        exact h1 v fun e => hne (by rw [e])
      · rw [at' j hj]
    · by_cases hj : j = i
      · subst hj
        rw [dbAt_some ((get_setSlot hs).trans (if_pos rfl)), dbAt_some hs]
        exact h2 hr
      · rw [at' j hj]

end Calls

/-! ## Cases -/

/-- Two stored objects, numbers 1 and 2. -/
def exSqlTbl : SqlTbl :=
  [⟨1, CKA_CLASS, .int 0⟩, ⟨1, CKA_UNIQUE_ID, .text [97]⟩, ⟨1, CKA_VALUE, .blob [1, 2]⟩,
   ⟨2, CKA_CLASS, .int 0⟩, ⟨2, CKA_UNIQUE_ID, .text [98]⟩, ⟨2, CKA_LABEL, .text [99]⟩]

/-- A new version of the first: other value, a label, nothing else. -/
def exSqlObj : Obj := ⟨0, 0, 0, [Attr.ofUlong CKA_CLASS CKO_DATA, Attr.ofString CKA_UNIQUE_ID [97], Attr.ofBytes CKA_VALUE [9],
  Attr.ofString CKA_LABEL [100]]⟩

/-- Everything works up to the `n`-th statement, at which `f` happens. -/
def exFate (n : Nat) (f : SqlFate) (k : Nat) : SqlFate := if k = n then f else .works

/-- The new table. -/
def exSqlNew : SqlTbl :=
  [⟨2, CKA_CLASS, .int 0⟩, ⟨2, CKA_UNIQUE_ID, .text [98]⟩, ⟨2, CKA_LABEL, .text [99]⟩,
   ⟨1, CKA_CLASS, .int 0⟩, ⟨1, CKA_UNIQUE_ID, .text [97]⟩, ⟨1, CKA_VALUE, .blob [9]⟩, ⟨1, CKA_LABEL, .text [100]⟩]

/-- The hypotheses of `C28_store`, and what happens when the process dies before the fifth of the eight statements (the old
rows are deleted and two new ones inserted by then), when the COMMIT fails, when it fails but is permanent, and when nothing fails. -/
example : exSqlObj.getStr CKA_UNIQUE_ID = .ok [97] ∧ sqlObj exSqlTbl 0 = [] ∧
    (sqlStore exSqlObj).exec (exFate 5 .dies) 0 ⟨exSqlTbl, none⟩ = (none, ⟨exSqlTbl, none⟩) ∧
    (sqlStore exSqlObj).exec (exFate 7 (.fails false)) 0 ⟨exSqlTbl, none⟩ = (some (.error .deviceMemory), ⟨exSqlTbl, none⟩) ∧
    (sqlStore exSqlObj).exec (exFate 7 (.fails true)) 0 ⟨exSqlTbl, none⟩ = (some (.error .deviceMemory), ⟨exSqlNew, none⟩) ∧
    (sqlStore exSqlObj).exec (exFate 8 .dies) 0 ⟨exSqlTbl, none⟩ = (some (.ok ()), ⟨exSqlNew, none⟩) := by
  decide +kernel

/-- The table of the one-step model for it, and the hypotheses of `C28_refines_store`. -/
def exSqlGroups : ObjTable :=
  [(1, [(CKA_CLASS, .int 0), (CKA_UNIQUE_ID, .text [97]), (CKA_VALUE, .blob [1, 2])]),
   (2, [(CKA_CLASS, .int 0), (CKA_UNIQUE_ID, .text [98]), (CKA_LABEL, .text [99])])]

example : groups exSqlTbl exSqlGroups ∧ TblOk exSqlGroups ∧ Full exSqlGroups ∧ maxId exSqlGroups + 1 < 2 ^ 31 := by
  refine ⟨fun id => ?_, ⟨by decide, by decide, ?_⟩, by unfold Full; decide, by decide⟩
  · by_cases h1 : 1 = id
    · subst h1; decide
    by_cases h2 : 2 = id
    · subst h2; decide
    · simp [exSqlTbl, exSqlGroups, sqlObj, AMap.get_cons, h1, h2]
  · intro g hg g' hg' u h1 h2
    simp only [exSqlGroups, List.mem_cons, List.not_mem_nil, or_false] at hg hg'
    rcases hg with rfl | rfl <;> rcases hg' with rfl | rfl <;> first | rfl | skip
    all_goals
      simp [hasRow, CKA_UNIQUE_ID, CKA_CLASS, CKA_VALUE, CKA_LABEL] at h1 h2
      rw [← h1] at h2; simp at h2

set_option maxRecDepth 20000 in
/-- The hypotheses of `C28_call`: a call that writes one object, with and without a failure of storage. -/
example : (∀ p ∈ exC27In, noMerge p.2) ∧ writesOne (.createObject exPlainKey) = true ∧
    (step exMechs exCrypto exOracle (exEnv 7) (exRun exC27In) (.sess 1 (.createObject exPlainKey))).1 = .handle 8 ∧
    (step exMechs exCrypto exOracle (exFail 7 [2, 1]) (exRun exC27In) (.sess 1 (.createObject exPlainKey))).1 = .err .deviceError ∧
    (dbAt (exRun exC27In) 7).objs.length + 1 =
      (dbAt (step exMechs exCrypto exOracle (exEnv 7) (exRun exC27In) (.sess 1 (.createObject exPlainKey))).2 7).objs.length := by
  refine ⟨fun p hp => (exC27In_plain p hp).2, rfl, ?_, ?_, ?_⟩ <;> decide +kernel

end Kry
