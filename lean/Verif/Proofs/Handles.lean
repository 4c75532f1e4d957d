import Verif.Proofs.Machine
import Verif.Proofs.Object

/-!
# Object handles

Invariant of the handle table and of the session objects, and what every primitive change of a token does
to them.
-/

namespace Kry

/-! ## The table alone -/

/-- Handles and unique ids correspond one to one, and handles are below the counter. -/
structure HsOk (h : Handles) : Prop where
  nd : (AMap.keys h.map).Nodup
  uids : (h.map.map Prod.snd).Nodup
  low : ∀ n u, h.get n = some u → 0 < n ∧ n < h.next
  pos : 0 < h.next

/-- A change of the table that removes only handles in `D` and never reuses one. -/
structure HsStep (D : Nat → Prop) (a b : Handles) : Prop where
  next : a.next ≤ b.next
  old : ∀ n u, n < a.next → b.get n = some u → a.get n = some u
  keep : ∀ n u, a.get n = some u → ¬ D n → b.get n = some u

theorem HsStep.refl {D : Nat → Prop} (a : Handles) : HsStep D a a :=
  ⟨Nat.le_refl _, fun _ _ _ h => h, fun _ _ h _ => h⟩

theorem HsStep.trans {D : Nat → Prop} {a b c : Handles} (x : HsStep D a b) (y : HsStep D b c) :
    HsStep D a c where
  next := Nat.le_trans x.next y.next
  old := fun n u hn h => x.old n u hn (y.old n u (Nat.lt_of_lt_of_le hn x.next) h)
  keep := fun n u h hd => y.keep n u (x.keep n u h hd) hd

theorem HsStep.mono {D E : Nat → Prop} {a b : Handles} (x : HsStep D a b) (h : ∀ n, D n → E n) :
    HsStep E a b := ⟨x.next, x.old, fun n u e hn => x.keep n u e fun hd => hn (h n hd)⟩

theorem hsOk_new : HsOk Handles.new :=
  ⟨List.nodup_nil, List.nodup_nil, fun n u h => (by cases h), by decide⟩

theorem getByUid_some {h : Handles} {u : Bytes} {n : Nat} (hn : (AMap.keys h.map).Nodup)
    (e : h.getByUid u = some n) : h.get n = some u := by
  unfold Handles.getByUid at e
  split at e
  · cases e
  · rename_i p hp
    injection e with e
    have h1 := List.mem_of_find?_eq_some hp
    have h2 := List.find?_some hp
    simp only [beq_iff_eq] at h2
    obtain ⟨a, b⟩ := p
    simp only at e h2
    rw [← e, ← h2]
    exact AMap.get_of_mem hn h1

theorem getByUid_none {h : Handles} {u : Bytes} (e : h.getByUid u = none) :
    u ∉ h.map.map Prod.snd := by
  unfold Handles.getByUid at e
  split at e
  · rename_i hp
    rw [List.find?_eq_none] at hp
    intro hm
    obtain ⟨p, h1, h2⟩ := List.mem_map.1 hm
    exact hp p h1 (by simp [h2])
  · cases e

/-- Two handles never stand for the same id. -/
theorem HsOk.inj {h : Handles} (ok : HsOk h) {n m : Nat} {u : Bytes} (h1 : h.get n = some u)
    (h2 : h.get m = some u) : n = m := by
  have key : ∀ (l : List (Nat × Bytes)), (l.map Prod.snd).Nodup → (n, u) ∈ l → (m, u) ∈ l → n = m := by
    intro l
    induction l with
    | nil => intro _ h; cases h
    | cons p l ih =>
      intro hd hn hm
      rw [List.map_cons, List.nodup_cons] at hd
      rcases List.mem_cons.1 hn with e1 | e1 <;> rcases List.mem_cons.1 hm with e2 | e2
      · have := e1.trans e2.symm; injection this
      · subst e1; exact absurd (List.mem_map.2 ⟨_, e2, rfl⟩) hd.1
      · subst e2; exact absurd (List.mem_map.2 ⟨_, e1, rfl⟩) hd.1
      · exact ih hd.2 e1 e2
  exact key h.map ok.uids (AMap.get_mem h1) (AMap.get_mem h2)

theorem HsOk.getByUid {h : Handles} (ok : HsOk h) {n : Nat} {u : Bytes} (e : h.get n = some u) :
    h.getByUid u = some n := by
  cases hc : h.getByUid u with
  | none => exact absurd (List.mem_map.2 ⟨_, AMap.get_mem e, rfl⟩) (getByUid_none hc)
  | some m => rw [ok.inj (getByUid_some ok.nd hc) e]

theorem hs_bump {D : Nat → Prop} {h : Handles} (ok : HsOk h) : HsOk h.bump.2 ∧ HsStep D h h.bump.2 :=
  ⟨⟨ok.nd, ok.uids, fun n u e => ⟨(ok.low n u e).1, Nat.lt_succ_of_lt (ok.low n u e).2⟩, Nat.succ_pos _⟩,
    ⟨Nat.le_succ _, fun _ _ _ h => h, fun _ _ h _ => h⟩⟩

/-- A new handle for an id. -/
theorem hs_insert {D : Nat → Prop} {h : Handles} (ok : HsOk h) (u : Bytes) :
    HsOk (h.bump.2.insert h.next u).2 ∧ HsStep D h (h.bump.2.insert h.next u).2 ∧
      (∀ n, n ≠ h.next → (h.bump.2.insert h.next u).2.get n = h.get n) ∧
      ((h.bump.2.insert h.next u).1 = .ok () → (h.bump.2.insert h.next u).2.get h.next = some u ∧
        h.getByUid u = none) ∧
      (∀ r, (h.bump.2.insert h.next u).1 = .error r → (h.bump.2.insert h.next u).2 = h.bump.2) := by
  have hb := hs_bump (D := D) ok
  have hnone : h.get h.next = none := by
    cases hc : h.get h.next with
    | none => rfl
    | some v => exact absurd (ok.low _ _ hc).2 (Nat.lt_irrefl _)
  unfold Handles.insert
  by_cases hc : (h.bump.2.get h.next).isSome || (h.bump.2.getByUid u).isSome
  · rw [if_pos hc]
    exact ⟨hb.1, hb.2, fun _ _ => rfl, fun h => (by cases h), fun _ _ => rfl⟩
  · rw [if_neg hc]
    have hu : h.getByUid u = none := by
      cases hx : h.getByUid u with
      | none => rfl
      | some m =>
        exfalso; apply hc
        have : h.bump.2.getByUid u = some m := hx
        simp [this]
    have hg : ∀ n, (Handles.get { h.bump.2 with map := h.bump.2.map ++ [(h.next, u)] } n) =
        if n = h.next then some u else h.get n := by
      intro n
      unfold Handles.get
      rw [AMap.get_append]
      have hm : h.bump.2.map = h.map := rfl
      rw [hm]
      by_cases e : n = h.next
      · subst e
        have : AMap.get h.map h.next = none := hnone
        rw [this]; simp [AMap.get_cons]
      · cases AMap.get h.map n <;> simp [AMap.get_cons, e, Ne.symm e]
    refine ⟨⟨AMap.nodup_append_single ok.nd hnone, ?_, ?_, Nat.succ_pos _⟩, ⟨Nat.le_succ _, ?_, ?_⟩, ?_, ?_, ?_⟩
    · show (List.map Prod.snd (h.map ++ [(h.next, u)])).Nodup
      rw [List.map_append, List.nodup_append]
      refine ⟨ok.uids, by simp, ?_⟩
      intro a ha b hb e
      simp at hb
      subst hb; subst e
      exact getByUid_none hu ha
    · intro n v hv
      rw [hg] at hv
      split at hv
      · rename_i e; subst e; exact ⟨ok.pos, Nat.lt_succ_self _⟩
      · exact ⟨(ok.low n v hv).1, Nat.lt_succ_of_lt (ok.low n v hv).2⟩
    · intro n v hn hv
      rw [hg, if_neg (Nat.ne_of_lt hn)] at hv
      exact hv
    · intro n v hv _
      rw [hg, if_neg (Nat.ne_of_lt (ok.low n v hv).2)]
      exact hv
    · intro n hn; rw [hg, if_neg hn]
    · intro _; rw [hg, if_pos rfl]; exact ⟨rfl, hu⟩
    · intro r hr; cases hr

theorem get_remove (h : Handles) (n m : Nat) :
    (h.remove n).get m = if n = m then none else h.get m := AMap.get_erase _ _ _

theorem hs_remove {D : Nat → Prop} {h : Handles} (ok : HsOk h) {n : Nat} (hd : D n) :
    HsOk (h.remove n) ∧ HsStep D h (h.remove n) := by
  refine ⟨⟨AMap.nodup_erase _ ok.nd, ?_, ?_, ok.pos⟩, Nat.le_refl _, ?_, ?_⟩
  · show (List.map Prod.snd (AMap.erase h.map n)).Nodup
    exact List.Sublist.nodup (List.Sublist.map _ List.filter_sublist) ok.uids
  · intro m u e
    rw [get_remove] at e
    split at e
    · cases e
    · exact ok.low m u e
  · intro m u _ e
    rw [get_remove] at e
    split at e
    · cases e
    · exact e
  · intro m u e hm
    rw [get_remove, if_neg]
    · exact e
    · intro e; subst e; exact hm hd

theorem get_removeAll (l : List Nat) (h : Handles) (m : Nat) :
    (l.foldl Handles.remove h).get m = if m ∈ l then none else h.get m := by
  induction l generalizing h with
  | nil => simp
  | cons n l ih =>
    rw [List.foldl_cons, ih, get_remove]
    by_cases e : m ∈ l
    · simp [e]
    · by_cases e2 : n = m
      · simp [e2]
      · simp [e, e2, Ne.symm e2]

theorem hs_removeAll {D : Nat → Prop} (l : List Nat) {h : Handles} (ok : HsOk h) (hd : ∀ n ∈ l, D n) :
    HsOk (l.foldl Handles.remove h) ∧ HsStep D h (l.foldl Handles.remove h) := by
  induction l generalizing h with
  | nil => exact ⟨ok, .refl h⟩
  | cons n l ih =>
    have a := hs_remove (D := D) ok (hd n (List.mem_cons_self ..))
    have b := ih a.1 fun m hm => hd m (List.mem_cons_of_mem _ hm)
    exact ⟨b.1, a.2.trans b.2⟩

theorem get_eraseAll {α : Type} (l : List Nat) (m : List (Nat × α)) (n : Nat) :
    AMap.get (l.foldl AMap.erase m) n = if n ∈ l then none else AMap.get m n := by
  induction l generalizing m with
  | nil => simp
  | cons k l ih =>
    rw [List.foldl_cons, ih, AMap.get_erase]
    by_cases e : n ∈ l
    · simp [e]
    · by_cases e2 : k = n
      · simp [e2]
      · simp [e, e2, Ne.symm e2]

theorem nodup_eraseAll {α : Type} (l : List Nat) {m : List (Nat × α)} (h : (AMap.keys m).Nodup) :
    (AMap.keys (l.foldl AMap.erase m)).Nodup := by
  induction l generalizing m with
  | nil => exact h
  | cons k l ih => exact ih (AMap.nodup_erase _ h)

/-- A search only adds handles, for objects it found. -/
theorem hs_searchLoop (tm : Template) (l : List Obj) {h : Handles} (ok : HsOk h) :
    HsOk (searchLoop tm l h).2 ∧ HsStep (fun _ => False) h (searchLoop tm l h).2 ∧
      (∀ r, (searchLoop tm l h).1 = .ok r → ∀ n ∈ r, ∃ u, (searchLoop tm l h).2.get n = some u ∧
        ∃ o ∈ l, o.getStr CKA_UNIQUE_ID = .ok u) := by
  induction l generalizing h with
  | nil =>
    refine ⟨ok, .refl h, ?_⟩
    intro r hr n hn
    unfold searchLoop at hr; injection hr with hr; subst hr; cases hn
  | cons o l ih =>
    unfold searchLoop
    extract_lets sk
    clear_value sk
    have wk : ∀ (q : Res (List Nat) × Handles), (∀ r, q.1 = .ok r → ∀ n ∈ r, ∃ u, q.2.get n = some u ∧
        ∃ o ∈ l, o.getStr CKA_UNIQUE_ID = .ok u) → (∀ r, q.1 = .ok r → ∀ n ∈ r, ∃ u, q.2.get n = some u ∧
        ∃ x ∈ o :: l, x.getStr CKA_UNIQUE_ID = .ok u) := by
      intro q hq r hr n hn
      obtain ⟨u, hu, x, hx, e⟩ := hq r hr n hn
      exact ⟨u, hu, x, List.mem_cons_of_mem _ hx, e⟩
    split
    · have i := ih ok
      exact ⟨i.1, i.2.1, wk _ i.2.2⟩
    · split
      · have i := ih ok
        exact ⟨i.1, i.2.1, wk _ i.2.2⟩
      · rename_i uid huid
        split
        · have i := ih ok
          exact ⟨i.1, i.2.1, wk _ i.2.2⟩
        · split
          · rename_i m hm
            have i := ih ok
            generalize searchLoop tm l h = q at i ⊢
            obtain ⟨r, h2⟩ := q
            cases r with
            | error r => exact ⟨i.1, i.2.1, fun _ h => (by cases h)⟩
            | ok l' =>
              refine ⟨i.1, i.2.1, ?_⟩
              intro r hr n hn
              injection hr with hr; subst hr
              rcases List.mem_cons.1 hn with e | e
              · subst e
                exact ⟨uid, i.2.1.keep n uid (getByUid_some ok.nd hm) id, o, List.mem_cons_self .., huid⟩
              · exact wk (.ok l', h2) i.2.2 l' rfl n e
          · have a := hs_insert (D := fun _ => False) ok uid
            have hb1 : h.bump.1 = h.next := rfl
            simp only [hb1]
            generalize h.bump.2.insert h.next uid = b at a ⊢
            obtain ⟨r, h1⟩ := b
            cases r with
            | error r => exact ⟨a.1, a.2.1, fun _ h => (by cases h)⟩
            | ok _ =>
              have i := ih a.1
              simp only
              generalize searchLoop tm l h1 = q at i ⊢
              obtain ⟨r, h2⟩ := q
              cases r with
              | error r => exact ⟨i.1, a.2.1.trans i.2.1, fun _ h => (by cases h)⟩
              | ok l' =>
                refine ⟨i.1, a.2.1.trans i.2.1, ?_⟩
                intro r hr n hn
                injection hr with hr; subst hr
                rcases List.mem_cons.1 hn with e | e
                · rw [e]
                  exact ⟨uid, i.2.1.keep _ _ (a.2.2.2.1 rfl).1 id, o, List.mem_cons_self .., huid⟩
                · exact wk (.ok l', h2) i.2.2 l' rfl n e

/-! ## Session objects -/

/-- Handle table and session objects of a token. -/
structure HOk (t : Token) : Prop where
  hs : HsOk t.handles
  nd : (AMap.keys t.sess).Nodup
  sess : ∀ n o, AMap.get t.sess n = some o → o.handle = n ∧
    ∃ u, t.handles.get n = some u ∧ o.getStr CKA_UNIQUE_ID = .ok u

/-- A change of a token by session `k` that removes only handles in `D`. -/
structure HStep (k : Nat) (D : Nat → Prop) (a b : Token) : Prop where
  hs : HsStep D a.handles b.handles
  oldS : ∀ n o, n < a.handles.next → AMap.get b.sess n = some o →
    ∃ o', AMap.get a.sess n = some o' ∧ o'.session = o.session
  newS : ∀ n o, a.handles.next ≤ n → AMap.get b.sess n = some o → o.session = k
  keepS : ∀ n o, AMap.get a.sess n = some o → ¬ D n →
    ∃ o', AMap.get b.sess n = some o' ∧ o'.session = o.session

theorem HStep.of_sess {k : Nat} {D : Nat → Prop} {a b : Token} (ok : HOk a)
    (h : HsStep D a.handles b.handles) (e : b.sess = a.sess) : HStep k D a b where
  hs := h
  oldS := fun n o _ h => ⟨o, by rw [← e]; exact h, rfl⟩
  newS := fun n o hn h => by
    rw [e] at h
    obtain ⟨_, u, hu, _⟩ := ok.sess n o h
    exact absurd (ok.hs.low n u hu).2 (Nat.not_lt.2 hn)
  keepS := fun n o h _ => ⟨o, by rw [e]; exact h, rfl⟩

/-- `HOk` carried along with the change. -/
def HGo (k : Nat) (D : Nat → Prop) (a b : Token) : Prop := HOk a → HOk b ∧ HStep k D a b

theorem HGo.refl {k : Nat} {D : Nat → Prop} (a : Token) : HGo k D a a := fun ok =>
  ⟨ok, .of_sess ok (.refl _) rfl⟩

theorem HStep.trans {k : Nat} {D : Nat → Prop} {a b c : Token} (x : HStep k D a b) (y : HStep k D b c) :
    HStep k D a c where
  hs := x.hs.trans y.hs
  oldS := fun n o hn h => by
    obtain ⟨o1, h1, e1⟩ := y.oldS n o (Nat.lt_of_lt_of_le hn x.hs.next) h
    obtain ⟨o2, h2, e2⟩ := x.oldS n o1 hn h1
    exact ⟨o2, h2, e2.trans e1⟩
  newS := fun n o hn h => by
    by_cases hb : n < b.handles.next
    · obtain ⟨o1, h1, e1⟩ := y.oldS n o hb h
      rw [← e1]; exact x.newS n o1 hn h1
    · exact y.newS n o (Nat.not_lt.1 hb) h
  keepS := fun n o h hd => by
    obtain ⟨o1, h1, e1⟩ := x.keepS n o h hd
    obtain ⟨o2, h2, e2⟩ := y.keepS n o1 h1 hd
    exact ⟨o2, h2, e2.trans e1⟩

theorem HGo.trans {k : Nat} {D : Nat → Prop} (a b c : Token) (x : HGo k D a b) (y : HGo k D b c) :
    HGo k D a c := fun ok =>
  ⟨(y (x ok).1).1, (x ok).2.trans (y (x ok).1).2⟩

/-- Only the handle table changes. -/
theorem HGo.of_hs {k : Nat} {D : Nat → Prop} {a b : Token} (e : b.sess = a.sess)
    (h : HsOk a.handles → HsOk b.handles ∧ HsStep D a.handles b.handles ∧
      ∀ n u, a.handles.get n = some u → b.handles.get n = some u) : HGo k D a b := by
  intro ok
  obtain ⟨h1, h2, h3⟩ := h ok.hs
  refine ⟨⟨h1, by rw [e]; exact ok.nd, ?_⟩, .of_sess ok h2 e⟩
  intro n o ho
  rw [e] at ho
  obtain ⟨e1, u, hu, e2⟩ := ok.sess n o ho
  exact ⟨e1, u, h3 n u hu, e2⟩

/-- Neither the handle table nor the session objects change. -/
theorem HGo.of_eq {k : Nat} {D : Nat → Prop} {a b : Token} (e : b.sess = a.sess) (h : b.handles = a.handles) :
    HGo k D a b := .of_hs e fun ok => by rw [h]; exact ⟨ok, .refl _, fun _ _ h => h⟩

theorem HsStep.all {a b : Handles} (x : HsStep (fun _ => False) a b) :
    ∀ n u, a.get n = some u → b.get n = some u := fun n u h => x.keep n u h id

variable {C : Crypto} {k : Nat} {D : Nat → Prop}

theorem go_search (e : Env) (tm : Template) (t : Token) :
    HGo k D t { t with handles := (t.store.search e t.handles tm).2 } := by
  refine HGo.of_hs rfl ?_
  intro ok
  show HsOk (t.store.search e t.handles tm).2 ∧ _
  unfold Store.search
  split
  · exact ⟨ok, .refl _, fun _ _ h => h⟩
  · rename_i l _
    have a := hs_searchLoop tm l ok
    exact ⟨a.1, a.2.1.mono (fun _ h => h.elim), a.2.1.all⟩

theorem go_store (e : Env) (t : Token) (o : Obj) (h0 : o.handle = 0) :
    HGo k D t { t with store := (t.store.store C e t.handles o).2.1,
                       handles := (t.store.store C e t.handles o).2.2 } := by
  refine HGo.of_hs rfl ?_
  intro ok
  rcases store_shape (C := C) e t.store t.handles o h0 with
    ⟨r, h⟩ | ⟨F, uid, x, _, _, _, ⟨r, _, h⟩ | ⟨_, r, _, h⟩⟩
  · simp only [h]; exact ⟨ok, .refl _, fun _ _ h => h⟩
  all_goals
    simp only [h]
    have a := hs_insert (D := fun _ => False) ok uid
    exact ⟨a.1, a.2.1.mono (fun _ h => h.elim), a.2.1.all⟩

theorem go_insert (e : Env) (t : Token) (o : Obj) (hz : Zero o) : HGo k D t (t.insertObject C e k o).2 := by
  unfold Token.insertObject
  split
  · split
    · exact .refl t
    · exact go_store e t o hz.handle
  · intro ok
    have hb := hs_bump (D := D) ok.hs
    have keepb : HOk { t with handles := t.handles.bump.2 } ∧
        HStep k D t { t with handles := t.handles.bump.2 } :=
      (HGo.of_hs (a := t) (b := { t with handles := t.handles.bump.2 }) rfl
        fun _ => ⟨hb.1, hb.2, fun _ _ h => h⟩) ok
    have hb1 : t.handles.bump.1 = t.handles.next := rfl
    simp only [hb1]
    split
    · exact keepb
    · rename_i uid hu
      have a := hs_insert (D := fun _ => False) ok.hs uid
      generalize t.handles.bump.2.insert t.handles.next uid = b at a ⊢
      obtain ⟨r, h1⟩ := b
      cases r with
      | error r =>
        exact (HGo.of_hs (a := t) (b := { t with handles := h1 }) rfl
          fun _ => ⟨a.1, a.2.1.mono (fun _ h => h.elim), a.2.1.all⟩) ok
      | ok _ =>
        have hno : AMap.get t.sess t.handles.next = none := by
          cases hc : AMap.get t.sess t.handles.next with
          | none => rfl
          | some x =>
            obtain ⟨_, u, hu, _⟩ := ok.sess _ x hc
            exact absurd (ok.hs.low _ u hu).2 (Nat.lt_irrefl _)
        refine ⟨⟨a.1, AMap.nodup_insert _ _ ok.nd, ?_⟩, ⟨a.2.1.mono (fun _ h => h.elim), ?_, ?_, ?_⟩⟩
        · intro n x hx
          simp only [AMap.get_insert] at hx
          split at hx
          · rename_i e1
            injection hx with hx; subst hx; subst e1
            exact ⟨rfl, uid, (a.2.2.2.1 rfl).1, hu⟩
          · obtain ⟨e1, u, h1, h2⟩ := ok.sess n x hx
            exact ⟨e1, u, a.2.1.all n u h1, h2⟩
        · intro n x hn hx
          simp only [AMap.get_insert] at hx
          rw [if_neg (by omega)] at hx
          exact ⟨x, hx, rfl⟩
        · intro n x hn hx
          simp only [AMap.get_insert] at hx
          split at hx
          · injection hx with hx; subst hx; rfl
          · obtain ⟨_, u, h1, _⟩ := ok.sess n x hx
            exact absurd (ok.hs.low n u h1).2 (Nat.not_lt.2 hn)
        · intro n x hx _
          refine ⟨x, ?_, rfl⟩
          simp only [AMap.get_insert]
          rw [if_neg]
          · exact hx
          · intro e1; subst e1; rw [hno] at hx; cases hx

/-- Removing handles, with the session objects behind them. -/
theorem go_remove (t : Token) (l l' : List Nat) (hl : ∀ n o, AMap.get t.sess n = some o → (n ∈ l ↔ n ∈ l'))
    (hd : ∀ n ∈ l, D n) (st : Store) (i : TokInfo) (lo : Option User) :
    HGo k D t { t with sess := l'.foldl AMap.erase t.sess, handles := l.foldl Handles.remove t.handles,
                       store := st, info := i, logged := lo } := by
  intro ok
  have a := hs_removeAll l ok.hs hd
  refine ⟨⟨a.1, nodup_eraseAll l' ok.nd, ?_⟩, ⟨a.2, ?_, ?_, ?_⟩⟩
  · intro n o ho
    simp only [get_eraseAll] at ho
    split at ho
    · cases ho
    · rename_i hn
      obtain ⟨e1, u, h1, h2⟩ := ok.sess n o ho
      refine ⟨e1, u, ?_, h2⟩
      show (l.foldl Handles.remove t.handles).get n = some u
      rw [get_removeAll, if_neg]
      · exact h1
      · rw [hl n o ho]; exact hn
  · intro n o _ ho
    simp only [get_eraseAll] at ho
    split at ho
    · cases ho
    · exact ⟨o, ho, rfl⟩
  · intro n o hn ho
    simp only [get_eraseAll] at ho
    split at ho
    · cases ho
    · obtain ⟨_, u, h1, _⟩ := ok.sess n o ho
      exact absurd (ok.hs.low n u h1).2 (Nat.not_lt.2 hn)
  · intro n o ho hnd
    refine ⟨o, ?_, rfl⟩
    simp only [get_eraseAll]
    rw [if_neg]
    · exact ho
    · intro hn; exact hnd (hd n ((hl n o ho).2 hn))

theorem go_destroy (e : Env) (n : Nat) (t : Token) (hd : D n) : HGo k D t (t.destroyObject C e n).2 := by
  unfold Token.destroyObject
  split
  · split
    · exact .refl t
    · exact go_remove t [n] [n] (fun _ _ _ => Iff.rfl) (fun m hm => by
        rw [List.mem_singleton] at hm; rw [hm]; exact hd) t.store t.info t.logged
  · rename_i hn
    split
    · exact .refl t
    · split
      · exact .refl t
      · refine go_remove t [n] [] ?_ (fun m hm => by
          rw [List.mem_singleton] at hm; rw [hm]; exact hd) _ t.info t.logged
        intro m o ho
        simp
        intro e1
        rw [e1, hn] at ho; cases ho

theorem uid_locked : allFactories (fun F => F.attrs.all fun f =>
    f.typ != CKA_UNIQUE_ID || f.is oaNeverSettable) = true := by decide +kernel

/-- C_SetAttributeValue never accepts a unique id. -/
theorem checkSet_noUid {o : Obj} {F : Factory} {tm : Template} (hF : objFactory o = .ok F)
    (h : checkSetAttributes F.attrs tm = .ok ()) : ∀ c ∈ tm, c.typ ≠ CKA_UNIQUE_ID := by
  intro c hc e
  obtain ⟨f, hf, hn, _⟩ := checkSetAttributes_ok h c hc
  obtain ⟨key, hk⟩ := objFactory_mem hF
  have := allFactories_spec uid_locked hk
  rw [List.all_eq_true] at this
  have := this f (findF_mem hf)
  rw [findF_typ hf, e, hn] at this
  simp at this

theorem setAttr_ids {o o' : Obj} {a : Attr} (h : o.setAttr a = .ok o') :
    o'.handle = o.handle ∧ o'.session = o.session := by
  unfold Obj.setAttr at h
  repeat' split at h
  all_goals first | (cases h; done) | (injection h with h; rw [← h]; exact ⟨rfl, rfl⟩)

theorem applyTemplate_ids (tm : Template) (o : Obj) :
    (applyTemplate o tm).2.handle = o.handle ∧ (applyTemplate o tm).2.session = o.session := by
  induction tm generalizing o with
  | nil => exact ⟨rfl, rfl⟩
  | cons c tm ih =>
    unfold applyTemplate
    split
    · exact ⟨rfl, rfl⟩
    · split
      · exact ⟨rfl, rfl⟩
      · rename_i o1 h1
        have a := setAttr_ids h1
        have b := ih o1
        exact ⟨b.1.trans a.1, b.2.trans a.2⟩

/-- What C_SetAttributeValue leaves alone in a session object. -/
theorem setObj_ids {o : Obj} {F : Factory} (tm : Template) (hF : objFactory o = .ok F) :
    (setObjectAttributes F o tm).2.handle = o.handle ∧ (setObjectAttributes F o tm).2.session = o.session ∧
      (setObjectAttributes F o tm).2.find CKA_UNIQUE_ID = o.find CKA_UNIQUE_ID := by
  unfold setObjectAttributes
  split
  · exact ⟨rfl, rfl, rfl⟩
  · split
    · exact ⟨rfl, rfl, rfl⟩
    · rename_i hc
      have a := applyTemplate_ids tm o
      exact ⟨a.1, a.2, applyTemplate_find_none o (checkSet_noUid hF hc)⟩

theorem go_setAttrs (e : Env) (n : Nat) (tm : Template) (t : Token) :
    HGo k D t (t.setObjectAttrs C e n tm).2 := by
  unfold Token.setObjectAttrs
  split
  · rename_i o ho
    split
    · exact .refl t
    · rename_i F hF
      have a := setObj_ids tm hF
      generalize setObjectAttributes F o tm = q at a ⊢
      obtain ⟨r, o'⟩ := q
      simp only at a ⊢
      intro ok
      refine ⟨⟨ok.hs, by rw [AMap.keys_modify]; exact ok.nd, ?_⟩, ⟨.refl _, ?_, ?_, ?_⟩⟩
      · intro m x hx
        simp only [AMap.get_modify] at hx
        split at hx
        · rename_i e1
          subst e1
          rw [ho] at hx; injection hx with hx; subst hx
          obtain ⟨e1, u, h1, h2⟩ := ok.sess n o ho
          refine ⟨a.1.trans e1, u, h1, ?_⟩
          unfold Obj.getStr at h2 ⊢
          rw [a.2.2]; exact h2
        · exact ok.sess m x hx
      · intro m x _ hx
        simp only [AMap.get_modify] at hx
        split at hx
        · rename_i e1
          subst e1
          rw [ho] at hx; injection hx with hx; subst hx
          exact ⟨o, ho, a.2.1.symm⟩
        · exact ⟨x, hx, rfl⟩
      · intro m x hm hx
        simp only [AMap.get_modify] at hx
        split at hx
        · rename_i e1
          subst e1
          obtain ⟨e1, u, h1, h2⟩ := ok.sess n o ho
          exact absurd (ok.hs.low n u h1).2 (Nat.not_lt.2 hm)
        · obtain ⟨e1, u, h1, h2⟩ := ok.sess m x hx
          exact absurd (ok.hs.low m u h1).2 (Nat.not_lt.2 hm)
      · intro m x hx _
        simp only [AMap.get_modify]
        by_cases e1 : n = m
        · subst e1
          rw [ho] at hx; injection hx with hx; subst hx
          exact ⟨o', by rw [if_pos rfl, ho]; rfl, a.2.1⟩
        · exact ⟨x, by rw [if_neg e1]; exact hx, rfl⟩
  · repeat' split
    all_goals first | exact .refl t | exact .of_eq rfl rfl

theorem authUser_hs (e : Env) (t : Token) (u : User) (pin : Bytes) (co : Bool) :
    (t.authUser C e u pin co).2.sess = t.sess ∧ (t.authUser C e u pin co).2.handles = t.handles := by
  unfold Token.authUser
  generalize t.store.authUser C e u pin co = p
  obtain ⟨r, f, st⟩ := p
  cases r with
  | error r => exact ⟨rfl, rfl⟩
  | ok _ => cases co <;> exact ⟨rfl, rfl⟩

theorem login_hs (e : Env) (t : Token) (ut : Nat) (pin : Bytes) :
    (t.login C e ut pin).2.sess = t.sess ∧ (t.login C e ut pin).2.handles = t.handles := by
  unfold Token.login
  repeat' split
  all_goals first | exact ⟨rfl, rfl⟩ | exact authUser_hs _ _ _ _ _

theorem setPin_hs (e : Env) (t : Token) (who : Option User) (pin old : Bytes) :
    (t.setPin C e who pin old).2.sess = t.sess ∧ (t.setPin C e who pin old).2.handles = t.handles := by
  unfold Token.setPin
  extract_lets ut
  clear_value ut
  cases ut with
  | none =>
    simp only
    split <;> exact ⟨rfl, rfl⟩
  | some u =>
    simp only
    have a : (if old ≠ [] then t.authUser C (e.sub 0) u old true else (.ok (), t)).2.sess = t.sess ∧
        (if old ≠ [] then t.authUser C (e.sub 0) u old true else (.ok (), t)).2.handles = t.handles := by
      split
      · exact authUser_hs _ _ _ _ _
      · exact ⟨rfl, rfl⟩
    generalize (if old ≠ [] then t.authUser C (e.sub 0) u old true else (.ok (), t)) = p at a ⊢
    obtain ⟨r, t1⟩ := p
    cases r with
    | error r => exact a
    | ok _ =>
      simp only at a ⊢
      generalize t1.store.setUserPin C (e.sub 1) u pin = q
      obtain ⟨r, st⟩ := q
      cases r with
      | error r => exact a
      | ok _ => cases u <;> exact a

/-- The private session objects, which C_Logout removes. -/
theorem go_logout (e : Env) (t : Token)
    (hd : t.logged ≠ none → ∀ n o, AMap.get t.sess n = some o → o.session ≠ 0 → o.isPrivate = true → D n) :
    HGo k D t (t.logout e).2 := by
  unfold Token.logout
  split
  · exact .refl t
  · rename_i u hu
    intro ok
    have hmem : ∀ n ∈ ((t.sess.filter fun p => p.2.session ≠ 0 ∧ p.2.isPrivate = true).map Prod.fst), D n := by
      intro n hn
      obtain ⟨p, hp, e1⟩ := List.mem_map.1 hn
      have hp := List.mem_filter.1 hp
      have hp2 := of_decide_eq_true hp.2
      have := AMap.get_of_mem ok.nd (x := p.1) (v := p.2) hp.1
      rw [e1] at this
      exact hd (by rw [hu]; intro h; cases h) n p.2 this hp2.1 hp2.2
    have key : ∀ st, HGo k D t { t.clearPrivate with logged := none, store := st } := by
      intro st
      unfold Token.clearPrivate
      exact go_remove t _ _ (fun _ _ _ => Iff.rfl) hmem st t.info none
    simp only
    split <;> exact key _ ok

theorem go_drop (h : Nat) (t : Token)
    (hd : ∀ n o, AMap.get t.sess n = some o → o.session = h → D n) :
    HGo k D t (t.dropSessionObjects h) := by
  intro ok
  unfold Token.dropSessionObjects
  refine go_remove t _ _ (fun _ _ _ => Iff.rfl) ?_ t.store t.info t.logged ok
  intro n hn
  obtain ⟨p, hp, e1⟩ := List.mem_map.1 hn
  have hp := List.mem_filter.1 hp
  have := AMap.get_of_mem ok.nd (x := p.1) (v := p.2) hp.1
  have e2 := (ok.sess _ _ this).1
  rw [e2] at e1
  rw [e1] at this
  exact hd n p.2 this (of_decide_eq_true hp.2)

theorem go_setPin (e : Env) (s : Session) (old new : Bytes) (t : Token)
    (hd : t.logged = none → ∀ n o, AMap.get t.sess n = some o → o.session ≠ 0 → o.isPrivate = true → D n) :
    HGo k D t (fnSetPin C e s t old new).2 := by
  unfold fnSetPin
  split
  · exact .refl t
  split
  · exact .refl t
  split
  · exact .refl t
  split
  · exact .of_eq (setPin_hs _ _ _ _ _).1 (setPin_hs _ _ _ _ _).2
  · rename_i hl
    have hn : t.logged = none := by
      unfold Token.loggedIn at hl
      cases h : t.logged with
      | none => rfl
      | some u => rw [h] at hl; exact absurd rfl hl
    have a := login_hs (C := C) (e.sub 0) t CKU_USER old
    generalize t.login C (e.sub 0) CKU_USER old = p at a ⊢
    obtain ⟨r, t1⟩ := p
    cases r with
    | error r => exact .of_eq a.1 a.2
    | ok _ =>
      simp only at a ⊢
      have c := setPin_hs (C := C) (e.sub 1) t1 none new old
      generalize t1.setPin C (e.sub 1) none new old = q at c ⊢
      obtain ⟨r, t2⟩ := q
      simp only at c ⊢
      have d := go_logout (k := k) (D := D) (e.sub 2) t2 (by
        intro _; rw [c.1, a.1]; exact hd hn)
      generalize t2.logout (e.sub 2) = w at d ⊢
      obtain ⟨r', t3⟩ := w
      exact HGo.trans t t2 t3 (.of_eq (c.1.trans a.1) (c.2.trans a.2)) d

theorem go_act {N : Obj → Prop} {a b : Token} (x : TAct C Z k D N a b) : HGo k D a b := by
  cases x with
  | insert e o _ hz => exact go_insert e a o hz
  | destroy e n _ hd => exact go_destroy e n a hd
  | setAttrs e n tm => exact go_setAttrs e n tm a
  | search e tm => exact go_search e tm a
  | update e n tm hl hu => exact .of_eq rfl rfl
  | initPin e pin =>
    unfold fnInitPin
    split
    · exact .refl a
    · exact .of_eq (setPin_hs _ _ _ _ _).1 (setPin_hs _ _ _ _ _).2
  | changePin e s old new t0 hp hd => exact go_setPin e s old new a hd

theorem go_acts {N : Obj → Prop} {a b : Token} (x : TActs C Z k D N a b) : HGo k D a b :=
  TActs.rel HGo.refl HGo.trans (fun _ _ => go_act) x

end Kry
