import Verif.Proofs.Objects

/-!
# The `objects` table as a map from unique ids to rows
-/

namespace Kry

/-- The rows of the object with a unique id. -/
def rowsOf (t : ObjTable) (u : Bytes) : Option (List (Nat × DbVal)) :=
  (t.find? fun g => hasRow g.2 CKA_UNIQUE_ID (.text u)).map Prod.snd

/-- What the `UNIQUE` constraint of the table and the way it is filled guarantee. -/
structure TblOk (t : ObjTable) : Prop where
  ids : (AMap.keys t).Nodup
  rows : ∀ g ∈ t, (AMap.keys g.2).Nodup
  uids : ∀ g ∈ t, ∀ g' ∈ t, ∀ u, hasRow g.2 CKA_UNIQUE_ID (.text u) = true →
    hasRow g'.2 CKA_UNIQUE_ID (.text u) = true → g = g'

theorem tblOk_nil : TblOk [] := ⟨List.nodup_nil, fun _ h => (by cases h), fun _ h => (by cases h)⟩

theorem hasRow_get {rows : List (Nat × DbVal)} (hn : (AMap.keys rows).Nodup) {t : Nat} {v : DbVal} :
    hasRow rows t v = true ↔ AMap.get rows t = some v := by
  unfold hasRow
  rw [List.any_eq_true]
  constructor
  · rintro ⟨⟨a, b⟩, hm, h⟩
    simp at h
    obtain ⟨rfl, rfl⟩ := h
    exact AMap.get_of_mem hn hm
  · intro h
    exact ⟨(t, v), AMap.get_mem h, by simp⟩

theorem rowsOf_iff {t : ObjTable} (ok : TblOk t) {u : Bytes} {r : List (Nat × DbVal)} :
    rowsOf t u = some r ↔ ∃ id, (id, r) ∈ t ∧ hasRow r CKA_UNIQUE_ID (.text u) = true := by
  unfold rowsOf
  constructor
  · intro h
    cases hf : t.find? fun g => hasRow g.2 CKA_UNIQUE_ID (.text u) with
    | none => rw [hf] at h; cases h
    | some g =>
      rw [hf] at h
      injection h with h
      subst h
      exact ⟨g.1, List.mem_of_find?_eq_some hf, by simpa using List.find?_some hf⟩
  · rintro ⟨id, hm, hr⟩
    cases hf : t.find? fun g => hasRow g.2 CKA_UNIQUE_ID (.text u) with
    | none =>
      rw [List.find?_eq_none] at hf
      exact absurd hr (hf _ hm)
    | some g =>
      have := ok.uids g (List.mem_of_find?_eq_some hf) (id, r) hm u (by simpa using List.find?_some hf) hr
      rw [this]; rfl

theorem rowsOf_none {t : ObjTable} {u : Bytes} :
    rowsOf t u = none ↔ ∀ g ∈ t, hasRow g.2 CKA_UNIQUE_ID (.text u) = false := by
  unfold rowsOf
  rw [Option.map_eq_none_iff, List.find?_eq_none]
  constructor
  · intro h g hg; simpa using h g hg
  · intro h g hg; simpa using h g hg

theorem findId_some {t : ObjTable} {u : Bytes} {id : Nat} (h : findId t u = some id) :
    ∃ r, (id, r) ∈ t ∧ hasRow r CKA_UNIQUE_ID (.text u) = true := by
  unfold findId at h
  split at h
  · cases h
  · rename_i g hg
    injection h with h
    subst h
    exact ⟨g.2, List.mem_of_find?_eq_some hg, by simpa using List.find?_some hg⟩

theorem findId_none {t : ObjTable} {u : Bytes} (h : findId t u = none) :
    ∀ g ∈ t, hasRow g.2 CKA_UNIQUE_ID (.text u) = false := by
  unfold findId at h
  split at h
  · rename_i hg
    rw [List.find?_eq_none] at hg
    intro g hm; simpa using hg g hm
  · cases h

/-- Deleting removes exactly the object with that id. -/
theorem mem_delete {t : ObjTable} (ok : TblOk t) {u : Bytes} {g : Nat × List (Nat × DbVal)} :
    g ∈ deleteObject t u ↔ g ∈ t ∧ hasRow g.2 CKA_UNIQUE_ID (.text u) = false := by
  unfold deleteObject
  split
  · rename_i h
    exact ⟨fun hg => ⟨hg, findId_none h g hg⟩, fun hg => hg.1⟩
  · rename_i id h
    obtain ⟨r, hr, hu⟩ := findId_some h
    unfold deleteId
    rw [List.mem_filter]
    constructor
    · rintro ⟨hg, hne⟩
      refine ⟨hg, ?_⟩
      cases hx : hasRow g.2 CKA_UNIQUE_ID (.text u) with
      | false => rfl
      | true =>
        have := ok.uids g hg (id, r) hr u hx hu
        rw [this] at hne
        simp at hne
    · rintro ⟨hg, hx⟩
      refine ⟨hg, ?_⟩
      simp only [decide_eq_true_eq]
      intro e
      have h1 := AMap.get_of_mem ok.ids (x := g.1) (v := g.2) hg
      have h2 := AMap.get_of_mem ok.ids hr
      rw [e, h2] at h1
      injection h1 with h1
      rw [h1, hx] at hu; cases hu

theorem delete_sub {t : ObjTable} {u : Bytes} : (deleteObject t u).Sublist t := by
  unfold deleteObject
  split
  · exact List.Sublist.refl _
  · exact List.filter_sublist

theorem TblOk.sub {t t' : ObjTable} (ok : TblOk t) (h : t'.Sublist t) : TblOk t' :=
  ⟨(h.map Prod.fst).nodup ok.ids, fun g hg => ok.rows g (h.subset hg),
    fun g hg g' hg' => ok.uids g (h.subset hg) g' (h.subset hg')⟩

theorem tblOk_delete {t : ObjTable} (ok : TblOk t) (u : Bytes) : TblOk (deleteObject t u) := ok.sub delete_sub

theorem hasRow_uid {g : List (Nat × DbVal)} (hn : (AMap.keys g).Nodup) {u u' : Bytes}
    (h : hasRow g CKA_UNIQUE_ID (.text u) = true) (h' : hasRow g CKA_UNIQUE_ID (.text u') = true) : u = u' := by
  rw [hasRow_get hn] at h h'
  rw [h] at h'
  injection h' with h'
  injection h'

theorem rowsOf_delete {t : ObjTable} (ok : TblOk t) (u u' : Bytes) :
    rowsOf (deleteObject t u) u' = if u = u' then none else rowsOf t u' := by
  by_cases e : u = u'
  · subst e
    rw [if_pos rfl, rowsOf_none]
    intro g hg
    exact ((mem_delete ok).1 hg).2
  · rw [if_neg e]
    have ok' := tblOk_delete ok u
    cases h : rowsOf t u' with
    | none =>
      rw [rowsOf_none] at h ⊢
      exact fun g hg => h g ((mem_delete ok).1 hg).1
    | some r =>
      obtain ⟨id, hm, hr⟩ := (rowsOf_iff ok).1 h
      refine (rowsOf_iff ok').2 ⟨id, (mem_delete ok).2 ⟨hm, ?_⟩, hr⟩
      cases hx : hasRow r CKA_UNIQUE_ID (.text u) with
      | false => rfl
      | true => exact absurd (hasRow_uid (ok.rows _ hm) hx hr) e

/-! ## Writing an object -/

theorem insertGroup_perm (g : Nat × List (Nat × DbVal)) (t : ObjTable) : (insertGroup g t).Perm (g :: t) := by
  induction t with
  | nil => exact .refl _
  | cons h t ih =>
    unfold insertGroup
    split
    · exact .refl _
    · exact (List.Perm.cons h ih).trans (.swap _ _ _)

theorem mem_insertGroup {g x : Nat × List (Nat × DbVal)} {t : ObjTable} :
    x ∈ insertGroup g t ↔ x = g ∨ x ∈ t := by
  rw [(insertGroup_perm g t).mem_iff, List.mem_cons]

theorem le_maxId {t : ObjTable} : ∀ g ∈ t, g.1 ≤ maxId t := by
  have : ∀ (t : ObjTable) (m : Nat), m ≤ t.foldl (fun m g => max m g.1) m ∧
      ∀ g ∈ t, g.1 ≤ t.foldl (fun m g => max m g.1) m := by
    intro t
    induction t with
    | nil => intro m; exact ⟨Nat.le_refl _, fun g h => by cases h⟩
    | cons a t ih =>
      intro m
      obtain ⟨h1, h2⟩ := ih (max m a.1)
      refine ⟨Nat.le_trans (Nat.le_max_left _ _) h1, fun g hg => ?_⟩
      rcases List.mem_cons.1 hg with e | e
      · rw [e]; exact Nat.le_trans (Nat.le_max_right _ _) h1
      · exact h2 g e
  exact (this t 0).2

/-- The value a later row of the same type overwrites an earlier one with. -/
def encFold (t : Nat) (acc : Option DbVal) (a : Attr) : Option DbVal :=
  if a.typ = t then
    match encodeAttr a with
    | .ok (some v) => some v
    | _ => acc
  else acc

theorem get_putRow (rows : List (Nat × DbVal)) (hn : (AMap.keys rows).Nodup) (t t' : Nat) (v : DbVal) :
    AMap.get (putRow rows t v) t' = (if t = t' then some v else AMap.get rows t') ∧
      (AMap.keys (putRow rows t v)).Nodup := by
  have e : putRow rows t v = AMap.erase rows t ++ [(t, v)] := by
    unfold putRow AMap.erase
    congr 1
  constructor
  · rw [e, AMap.get_append]
    by_cases h : t = t'
    · subst h
      rw [AMap.get_erase, if_pos rfl]
      simp [AMap.get_cons]
    · rw [AMap.get_erase, if_neg h, if_neg h]
      cases AMap.get rows t' with
      | some x => rfl
      | none => simp [h, AMap.get]
  · rw [e]
    exact AMap.nodup_append_single (AMap.nodup_erase t hn) (by rw [AMap.get_erase, if_pos rfl])

theorem get_putRows {rows rows' : List (Nat × DbVal)} {as : List Attr} (hn : (AMap.keys rows).Nodup)
    (h : putRows rows as = .ok rows') :
    (AMap.keys rows').Nodup ∧ ∀ t, AMap.get rows' t = as.foldl (encFold t) (AMap.get rows t) := by
  induction as generalizing rows with
  | nil =>
    injection h with h
    subst h
    exact ⟨hn, fun t => rfl⟩
  | cons a as ih =>
    unfold putRows at h
    split at h
    · cases h
    · split at h
      · cases h
      · rename_i he
        obtain ⟨h1, h2⟩ := ih hn h
        refine ⟨h1, fun t => ?_⟩
        rw [h2, List.foldl_cons]
        congr 1
        unfold encFold
        rw [he]; simp
      · rename_i v he
        obtain ⟨h1, h2⟩ := ih (get_putRow rows hn a.typ 0 v).2 h
        refine ⟨h1, fun t => ?_⟩
        rw [h2, List.foldl_cons]
        congr 1
        unfold encFold
        rw [he, (get_putRow rows hn a.typ t v).1]

theorem encFold_none {t : Nat} {as : List Attr} (h : ∀ a ∈ as, a.typ ≠ t) (acc : Option DbVal) :
    as.foldl (encFold t) acc = acc := by
  induction as generalizing acc with
  | nil => rfl
  | cons a as ih =>
    rw [List.foldl_cons]
    have : encFold t acc a = acc := by unfold encFold; rw [if_neg (h a (List.mem_cons_self ..))]
    rw [this]
    exact ih (fun b hb => h b (List.mem_cons_of_mem _ hb)) acc

/-- An attribute that occurs once is stored as encoded. -/
theorem encFold_one {t : Nat} {as : List Attr} {a : Attr} {v : DbVal}
    (h1 : (as.filter fun a => a.typ == t).length ≤ 1) (hf : as.find? (fun a => a.typ == t) = some a)
    (he : encodeAttr a = .ok (some v)) (acc : Option DbVal) : as.foldl (encFold t) acc = some v := by
  induction as generalizing acc with
  | nil => cases hf
  | cons b as ih =>
    rw [List.foldl_cons]
    by_cases hb : b.typ = t
    · have hb' : (b.typ == t) = true := by simp [hb]
      simp only [List.find?_cons, hb'] at hf
      injection hf with hf
      subst hf
      simp only [List.filter_cons, hb', if_true, List.length_cons] at h1
      have hn : ∀ a ∈ as, a.typ ≠ t := by
        intro a ha e
        have : 0 < (as.filter fun a => a.typ == t).length :=
          List.length_pos_of_mem (List.mem_filter.2 ⟨ha, by simp [e]⟩)
        omega
      rw [encFold_none hn]
      unfold encFold
      rw [if_pos hb, he]
    · have hb' : (b.typ == t) = false := by simp [hb]
      simp only [List.find?_cons, hb'] at hf
      simp only [List.filter_cons, hb'] at h1
      exact ih h1 hf _

theorem encode_str {a : Attr} {u : Bytes} (h : a.toStr = .ok u) : encodeAttr a = .ok (some (.text u)) := by
  have ht : a.atype = .string := by
    unfold Attr.toStr at h
    split at h
    · cases h
    · rename_i h1; simpa using h1
  unfold encodeAttr
  rw [ht]
  simp only [h]

/-- An object written under its own unique id. -/
theorem putRows_uid {o : Obj} {u : Bytes} {rows : List (Nat × DbVal)} (h1 : uidCount o.attrs ≤ 1)
    (hu : o.getStr CKA_UNIQUE_ID = .ok u) (h : putRows [] o.attrs = .ok rows) :
    (AMap.keys rows).Nodup ∧ AMap.get rows CKA_UNIQUE_ID = some (.text u) := by
  obtain ⟨hn, hg⟩ := get_putRows (rows := []) List.nodup_nil h
  refine ⟨hn, ?_⟩
  unfold Obj.getStr at hu
  split at hu
  · cases hu
  · rename_i a ha
    rw [hg]
    exact encFold_one h1 ha (encode_str hu) _

theorem store_id {t t' : ObjTable} {u : Bytes} {o : Obj} (ok : TblOk t) (h : storeObject t u o = .ok t') :
    ∃ id, (∀ g ∈ deleteObject t u, g.1 ≠ id) ∧
      (match putRows [] o.attrs with
        | .error e => .error e
        | .ok [] => .ok (deleteObject t u)
        | .ok rows => .ok (insertGroup (id, rows) (deleteObject t u)) : Res ObjTable) = .ok t' := by
  unfold storeObject at h
  simp only at h
  cases hf : findId t u with
  | none =>
    rw [hf] at h
    refine ⟨_, ?_, h⟩
    intro g hg
    have := le_maxId g ((mem_delete ok).1 hg).1
    exact Nat.ne_of_lt (Nat.lt_succ_of_le this)
  | some id =>
    rw [hf] at h
    refine ⟨_, ?_, h⟩
    intro g hg
    obtain ⟨hm, hx⟩ := (mem_delete ok).1 hg
    obtain ⟨r, hr, hu⟩ := findId_some hf
    intro e
    have e : g.1 = id := e
    have h1 := AMap.get_of_mem ok.ids (x := g.1) (v := g.2) hm
    have h2 := AMap.get_of_mem ok.ids hr
    rw [e, h2] at h1
    injection h1 with h1
    rw [h1, hx] at hu; cases hu

theorem store_inv {t t' : ObjTable} {u : Bytes} {o : Obj} (ok : TblOk t) (h1 : uidCount o.attrs ≤ 1)
    (hu : o.getStr CKA_UNIQUE_ID = .ok u) (h : storeObject t u o = .ok t') :
    TblOk t' ∧ ∃ rows, putRows [] o.attrs = .ok rows ∧
      ∀ u', rowsOf t' u' = if u = u' then some rows else rowsOf t u' := by
  obtain ⟨id, fresh, h⟩ := store_id ok h
  cases hp : putRows [] o.attrs with
  | error r => rw [hp] at h; cases h
  | ok rows =>
    obtain ⟨hn, hg⟩ := putRows_uid h1 hu hp
    have hne : rows ≠ [] := by intro e; rw [e] at hg; cases hg
    have ht : t' = insertGroup (id, rows) (deleteObject t u) := by
      rw [hp] at h
      cases rows with
      | nil => exact absurd rfl hne
      | cons r rows => injection h with h; exact h.symm
    have okd := tblOk_delete ok u
    have has : hasRow rows CKA_UNIQUE_ID (.text u) = true := (hasRow_get hn).2 hg
    have ok' : TblOk t' := by
      subst ht
      refine ⟨?_, ?_, ?_⟩
      · have := (insertGroup_perm (id, rows) (deleteObject t u)).map Prod.fst
        unfold AMap.keys
        rw [this.nodup_iff]
        rw [List.map_cons, List.nodup_cons]
        refine ⟨?_, okd.ids⟩
        intro hm
        obtain ⟨g, hg, e⟩ := List.mem_map.1 hm
        exact fresh g hg e
      · intro g hg
        rcases mem_insertGroup.1 hg with e | e
        · rw [e]; exact hn
        · exact okd.rows g e
      · have cross : ∀ g ∈ deleteObject t u, ∀ v, hasRow g.2 CKA_UNIQUE_ID (.text v) = true →
            hasRow rows CKA_UNIQUE_ID (.text v) = true → False := by
          intro g hg v hv hv'
          have e := hasRow_uid hn hv' has
          subst e
          have := ((mem_delete ok).1 hg).2
          rw [hv] at this; cases this
        intro g hg g' hg' v hv hv'
        rcases mem_insertGroup.1 hg with e | e <;> rcases mem_insertGroup.1 hg' with e' | e'
        · rw [e, e']
        · subst e; exact (cross g' e' v hv' hv).elim
        · subst e'; exact (cross g e v hv hv').elim
        · exact okd.uids g e g' e' v hv hv'
    refine ⟨ok', rows, rfl, fun u' => ?_⟩
    by_cases e : u = u'
    · subst e
      rw [if_pos rfl]
      exact (rowsOf_iff ok').2 ⟨id, by rw [ht]; exact mem_insertGroup.2 (.inl rfl), has⟩
    · rw [if_neg e]
      have : rowsOf t u' = rowsOf (deleteObject t u) u' := by rw [rowsOf_delete ok, if_neg e]
      rw [this]
      cases hx : rowsOf (deleteObject t u) u' with
      | none =>
        rw [rowsOf_none] at hx ⊢
        intro g hg
        rw [ht] at hg
        rcases mem_insertGroup.1 hg with e1 | e1
        · rw [e1]
          cases hy : hasRow rows CKA_UNIQUE_ID (.text u') with
          | false => rfl
          | true => exact absurd (hasRow_uid hn has hy) e
        · exact hx g e1
      | some r =>
        obtain ⟨id', hm, hr⟩ := (rowsOf_iff okd).1 hx
        exact (rowsOf_iff ok').2 ⟨id', by rw [ht]; exact mem_insertGroup.2 (.inr hm), hr⟩

/-! ## Reading an object -/

theorem decodeRow_typ {t : Nat} {v : DbVal} {a : Attr} (h : decodeRow t v = .ok a) : a.typ = t := by
  unfold decodeRow at h
  repeat' split at h
  all_goals first | (cases h; done) | (injection h with h; rw [← h]; rfl)

/-- Each row becomes the attribute of its type. -/
theorem decodeRows_find {rows : List (Nat × DbVal)} {o o' : Obj} (hn : (AMap.keys rows).Nodup)
    (h : decodeRows o rows = .ok o') (t : Nat) :
    match AMap.get rows t with
    | none => o'.find t = o.find t
    | some v => ∃ a, decodeRow t v = .ok a ∧ o'.find t = some a := by
  induction rows generalizing o with
  | nil => injection h with h; rw [← h]; rfl
  | cons p rows ih =>
    obtain ⟨t1, v1⟩ := p
    unfold decodeRows at h
    split at h
    · cases h
    · rename_i a ha
      split at h
      · cases h
      · rename_i o1 h1
        have hn' : (AMap.keys rows).Nodup := (List.nodup_cons.1 hn).2
        have hni : t1 ∉ AMap.keys rows := (List.nodup_cons.1 hn).1
        have := ih hn' h
        have hf := find_setAttr h1 t
        have hty := decodeRow_typ ha
        rw [AMap.get_cons]
        by_cases e : t1 = t
        · subst e
          rw [if_pos rfl]
          rw [AMap.get_eq_none.2 hni] at this
          simp only at this ⊢
          refine ⟨a, ha, ?_⟩
          rw [this, hf, if_pos hty]
        · rw [if_neg e]
          rw [hty, if_neg e] at hf
          rw [hf] at this
          exact this

theorem decodeRows_keep {rows : List (Nat × DbVal)} {o o' : Obj} (h : decodeRows o rows = .ok o') :
    Zero o → Zero o' := by
  induction rows generalizing o with
  | nil => injection h with h; rw [← h]; exact fun h => h
  | cons p rows ih =>
    obtain ⟨t1, v1⟩ := p
    unfold decodeRows at h
    split at h
    · cases h
    · split at h
      · cases h
      · rename_i o1 h1
        exact fun z => ih h (zero_setAttr h1 z)

theorem rowsToObjects_one {t : ObjTable} {o : Obj} (h : rowsToObjects t = .ok [o]) :
    ∃ g, t = [g] ∧ decodeRows (Obj.new CK_UNAVAILABLE_INFORMATION) g.2 = .ok o := by
  cases t with
  | nil => cases h
  | cons g t =>
    refine ⟨g, ?_⟩
    unfold rowsToObjects at h
    split at h
    · cases h
    · rename_i o1 h1
      split at h
      · cases h
      · split at h
        · cases h
        · rename_i l hl
          injection h with h
          injection h with h2 h3
          subst h2; subst h3
          refine ⟨?_, h1⟩
          cases t with
          | nil => rfl
          | cons g' t =>
            exfalso
            unfold rowsToObjects at hl
            repeat' split at hl
            all_goals cases hl

/-- The rows a fetch looks at. -/
def pick (hints : List Nat) (r : List (Nat × DbVal)) : List (Nat × DbVal) :=
  if hints = [] then r else r.filter fun p => hints.contains p.1

theorem get_pick {hints : List Nat} {r : List (Nat × DbVal)} (hn : (AMap.keys r).Nodup) (t : Nat) :
    AMap.get (pick hints r) t = if hints = [] ∨ t ∈ hints then AMap.get r t else none := by
  unfold pick
  by_cases h : hints = []
  · simp [h]
  · rw [if_neg h, AMap.get_filter _ hn]
    simp only [h, false_or]
    cases AMap.get r t with
    | none => simp
    | some v => by_cases ht : t ∈ hints <;> simp [ht, Option.filter]

theorem nodup_pick {hints : List Nat} {r : List (Nat × DbVal)} (hn : (AMap.keys r).Nodup) :
    (AMap.keys (pick hints r)).Nodup := by
  unfold pick
  split
  · exact hn
  · exact AMap.nodup_filter _ hn

/-- A successful fetch decodes the rows of that unique id. -/
theorem fetchByUid_ok {e : Env} {db : Db} {u : Bytes} {hints : List Nat} {o : Obj} (ok : TblOk db.objs)
    (h : db.fetchByUid e u hints = .ok o) :
    ∃ r, rowsOf db.objs u = some r ∧ (AMap.keys r).Nodup ∧ AMap.get r CKA_UNIQUE_ID = some (.text u) ∧
      decodeRows (Obj.new CK_UNAVAILABLE_INFORMATION) (pick hints r) = .ok o := by
  unfold Db.fetchByUid at h
  split at h
  · cases h
  · split at h
    · cases h
    · simp only at h
      split at h
      · cases h
      · rename_i o1 h1
        injection h with h
        subst h
        obtain ⟨g, hg, hd⟩ := rowsToObjects_one h1
        have hm : ∃ g0 ∈ db.objs, hasRow g0.2 CKA_UNIQUE_ID (.text u) = true ∧ g.2 = pick hints g0.2 := by
          have : g ∈ [g] := List.mem_cons_self ..
          rw [← hg] at this
          split at this
          · rename_i e
            have := List.mem_filter.1 this
            exact ⟨g, this.1, this.2, by unfold pick; rw [if_pos e]⟩
          · rename_i e
            obtain ⟨g0, h0, e0⟩ := List.mem_map.1 (List.mem_filter.1 this).1
            have := List.mem_filter.1 h0
            exact ⟨g0, this.1, this.2, by unfold pick; rw [← e0, if_neg e]⟩
        obtain ⟨g0, hg0, hu, hp⟩ := hm
        have hn := ok.rows g0 hg0
        exact ⟨g0.2, (rowsOf_iff ok).2 ⟨g0.1, hg0, hu⟩, hn, (hasRow_get hn).1 hu, by rw [← hp]; exact hd⟩
      · cases h

theorem uid_kind : attrKind CKA_UNIQUE_ID = some .string := by decide +kernel

/-- The unique id read back is the one asked for. -/
theorem fetchByUid_uid {e : Env} {db : Db} {u : Bytes} {hints : List Nat} {o : Obj} (ok : TblOk db.objs)
    (h : db.fetchByUid e u hints = .ok o) :
    Zero o ∧ if hints = [] ∨ CKA_UNIQUE_ID ∈ hints then o.find CKA_UNIQUE_ID = some (Attr.ofString CKA_UNIQUE_ID u)
      else o.find CKA_UNIQUE_ID = none := by
  obtain ⟨r, hr, hn, hg, hd⟩ := fetchByUid_ok ok h
  refine ⟨decodeRows_keep hd (zero_new _), ?_⟩
  have := decodeRows_find (nodup_pick hn) hd CKA_UNIQUE_ID
  rw [get_pick hn, hg] at this
  split
  · rename_i c
    rw [if_pos c] at this
    simp only at this
    obtain ⟨a, ha, hf⟩ := this
    unfold decodeRow at ha
    rw [uid_kind] at ha
    injection ha with ha
    rw [hf, ← ha]
  · rename_i c
    rw [if_neg c] at this
    simp only at this
    rw [this]
    rfl

end Kry
