import Verif.Proofs.Fetch

/-!
# Reading depends only on the rows of the object

`Db.fetchByUid` and what is built on it, for two tables that hold the same rows for one unique id.
-/

namespace Kry

/-- The groups with a unique id: none or one. -/
theorem filter_uid {t : ObjTable} (ok : TblOk t) (u : Bytes) :
    (t.filter fun g => hasRow g.2 CKA_UNIQUE_ID (.text u)).map Prod.snd = (rowsOf t u).toList := by
  induction t with
  | nil => rfl
  | cons g t ih =>
    have ok' : TblOk t := ok.sub (List.sublist_cons_self ..)
    have ih := ih ok'
    unfold rowsOf at ih ⊢
    rw [List.filter_cons, List.find?_cons]
    cases hg : hasRow g.2 CKA_UNIQUE_ID (.text u) with
    | false => simpa using ih
    | true =>
      simp only [if_true, List.map_cons, Option.map_some, Option.toList_some]
      have : t.filter (fun g => hasRow g.2 CKA_UNIQUE_ID (.text u)) = [] := by
        rw [List.filter_eq_nil_iff]
        intro x hx hr
        have e := ok.uids g (.head _) x (.tail _ hx) u hg hr
        have hn := ok.ids
        unfold AMap.keys at hn
        rw [List.map_cons, List.nodup_cons] at hn
        exact hn.1 (by rw [e]; exact List.mem_map_of_mem hx)
      rw [this]
      rfl

theorem rowsToObjects_snd {a b : ObjTable} (h : a.map Prod.snd = b.map Prod.snd) : rowsToObjects a = rowsToObjects b := by
  induction a generalizing b with
  | nil => cases b with
    | nil => rfl
    | cons => cases h
  | cons x a ih => cases b with
    | nil => cases h
    | cons y b =>
      rw [List.map_cons, List.map_cons] at h
      injection h with h1 h2
      unfold rowsToObjects
      have e : (a ≠ []) = (b ≠ []) := by
        cases a <;> cases b <;> first | rfl | (cases h2; done) | simp
      rw [h1, ih h2]
      simp only [e]

/-- Reading by unique id depends only on the rows under it. -/
theorem fetchByUid_congr {a b : Db} (oka : TblOk a.objs) (okb : TblOk b.objs) {u : Bytes}
    (h : rowsOf a.objs u = rowsOf b.objs u) (e : Env) (hints : List Nat) :
    a.fetchByUid e u hints = b.fetchByUid e u hints := by
  have hf : (a.objs.filter fun g => hasRow g.2 CKA_UNIQUE_ID (.text u)).map Prod.snd =
      (b.objs.filter fun g => hasRow g.2 CKA_UNIQUE_ID (.text u)).map Prod.snd := by
    rw [filter_uid oka, filter_uid okb, h]
  unfold Db.fetchByUid
  simp only
  generalize a.objs.filter _ = x at hf
  generalize b.objs.filter _ = y at hf
  have : rowsToObjects (if hints = [] then x
        else (x.map fun g => (g.1, g.2.filter fun r => hints.contains r.1)).filter fun g => !g.2.isEmpty) =
      rowsToObjects (if hints = [] then y
        else (y.map fun g => (g.1, g.2.filter fun r => hints.contains r.1)).filter fun g => !g.2.isEmpty) := by
    apply rowsToObjects_snd
    split
    · exact hf
    · have k : ∀ z : ObjTable, ((z.map fun g => (g.1, g.2.filter fun r => hints.contains r.1)).filter
          fun g => !g.2.isEmpty).map Prod.snd =
          ((z.map Prod.snd).map fun r => r.filter fun r => hints.contains r.1).filter fun r => !r.isEmpty := by
        intro z
        induction z with
        | nil => rfl
        | cons g z ih =>
          simp only [List.map_cons, List.filter_cons]
          split
          · rw [List.map_cons, ih]
          · exact ih
      rw [k, k, hf]
  rw [this]

/-- Reading by handle depends only on the rows under its unique id. -/
theorem fetch_congr {C : Crypto} {a b : Store} (oka : TblOk a.db.objs) (okb : TblOk b.db.objs) (hc : a.aci = b.aci)
    {hs : Handles} {n : Nat} (h : ∀ u, hs.get n = some u → rowsOf a.db.objs u = rowsOf b.db.objs u) (e : Env) (hints : List Nat) :
    a.fetch C e hs n hints = b.fetch C e hs n hints := by
  unfold Store.fetch
  cases hg : hs.get n with
  | none => rfl
  | some u =>
    simp only
    rw [fetchByUid_congr oka okb (h u hg), hc]

end Kry
