import Verif.Proofs.Basic

/-! # Helper lemmas about association lists -/

namespace Kry

namespace AMap

variable {κ : Type} {α : Type} [DecidableEq κ]

theorem get_cons (k : κ) (v : α) (m : List (κ × α)) (x : κ) :
    get ((k, v) :: m) x = if k = x then some v else get m x := rfl

@[simp] theorem get_nil (x : κ) : get ([] : List (κ × α)) x = none := rfl

theorem get_erase (m : List (κ × α)) (x y : κ) :
    get (erase m x) y = if x = y then none else get m y := by
  induction m with
  | nil => simp [erase]
  | cons p m ih =>
    obtain ⟨k, v⟩ := p
    unfold erase at ih ⊢
    by_cases hk : k = x
    · subst hk
      have : List.filter (fun p : κ × α => decide (p.1 ≠ k)) ((k, v) :: m)
          = List.filter (fun p : κ × α => decide (p.1 ≠ k)) m := by simp
      rw [this, ih]
      by_cases hy : k = y
      · simp [hy]
      · simp [hy, get_cons]
    · have : List.filter (fun p : κ × α => decide (p.1 ≠ x)) ((k, v) :: m)
          = (k, v) :: List.filter (fun p : κ × α => decide (p.1 ≠ x)) m := by simp [hk]
      rw [this, get_cons, get_cons, ih]
      by_cases hy : k = y
      · subst hy; simp [Ne.symm hk]
      · simp [hy]

theorem get_insert (m : List (κ × α)) (x y : κ) (v : α) :
    get (insert m x v) y = if x = y then some v else get m y := by
  unfold insert
  rw [get_cons, get_erase]
  by_cases h : x = y <;> simp [h]

theorem get_modify (m : List (κ × α)) (x y : κ) (f : α → α) :
    get (modify m x f) y = if x = y then (get m y).map f else get m y := by
  induction m with
  | nil => simp [modify]
  | cons p m ih =>
    obtain ⟨k, v⟩ := p
    have e : modify ((k, v) :: m) x f = (if k = x then (k, f v) else (k, v)) :: modify m x f := rfl
    rw [e]
    by_cases hk : k = x
    · subst hk
      simp only [if_true, get_cons, ih]
      by_cases hy : k = y <;> simp [hy]
    · simp only [hk, if_false, get_cons, ih]
      by_cases hy : k = y
      · subst hy; simp [Ne.symm hk]
      · simp [hy]

theorem keys_modify (m : List (κ × α)) (x : κ) (f : α → α) : keys (modify m x f) = keys m := by
  induction m with
  | nil => rfl
  | cons p m ih =>
    show (if p.1 = x then (p.1, f p.2) else p).1 :: keys (modify m x f) = p.1 :: keys m
    rw [ih]; split <;> rfl

theorem get_eq_none {m : List (κ × α)} {x : κ} : get m x = none ↔ x ∉ keys m := by
  induction m with
  | nil => simp [keys]
  | cons p m ih =>
    obtain ⟨k, v⟩ := p
    rw [get_cons]
    show _ ↔ x ∉ k :: keys m
    by_cases h : k = x
    · simp [h]
    · simp [h, ih, Ne.symm h]

theorem mem_keys {m : List (κ × α)} {x : κ} : x ∈ keys m ↔ ∃ v, get m x = some v := by
  cases h : get m x with
  | none => simp [get_eq_none.1 h]
  | some v =>
    have : ¬ get m x = none := by rw [h]; simp
    rw [get_eq_none] at this
    simp at this
    simp [this]

theorem get_of_mem {m : List (κ × α)} (hn : (keys m).Nodup) {x : κ} {v : α} (h : (x, v) ∈ m) :
    get m x = some v := by
  induction m with
  | nil => cases h
  | cons p m ih =>
    obtain ⟨k, w⟩ := p
    have hn' : (k :: keys m).Nodup := hn
    rw [List.nodup_cons] at hn'
    rw [get_cons]
    rcases List.mem_cons.1 h with h | h
    · injection h with h1 h2; subst h1; subst h2; simp
    · have : x ∈ keys m := List.mem_map.2 ⟨(x, v), h, rfl⟩
      have : k ≠ x := fun e => hn'.1 (e ▸ this)
      simp [this, ih hn'.2 h]

theorem mem_iff_get {m : List (κ × α)} (hn : (keys m).Nodup) {x : κ} {v : α} :
    (x, v) ∈ m ↔ get m x = some v := ⟨get_of_mem hn, get_mem⟩

omit [DecidableEq κ] in
theorem keys_filter_sublist (m : List (κ × α)) (f : κ × α → Bool) :
    (keys (m.filter f)).Sublist (keys m) := List.Sublist.map _ List.filter_sublist

omit [DecidableEq κ] in
theorem nodup_filter {m : List (κ × α)} (f : κ × α → Bool) (h : (keys m).Nodup) :
    (keys (m.filter f)).Nodup := h.sublist (keys_filter_sublist m f)

theorem nodup_erase {m : List (κ × α)} (x : κ) (h : (keys m).Nodup) : (keys (erase m x)).Nodup :=
  nodup_filter _ h

omit [DecidableEq κ] in
theorem nodup_retain {m : List (κ × α)} (f : κ → α → Bool) (h : (keys m).Nodup) :
    (keys (retain m f)).Nodup := nodup_filter _ h

theorem nodup_insert {m : List (κ × α)} (x : κ) (v : α) (h : (keys m).Nodup) :
    (keys (insert m x v)).Nodup := by
  show (x :: keys (erase m x)).Nodup
  rw [List.nodup_cons]
  refine ⟨?_, nodup_erase x h⟩
  rw [← get_eq_none, get_erase]; simp

theorem nodup_modify {m : List (κ × α)} (x : κ) (f : α → α) (h : (keys m).Nodup) :
    (keys (modify m x f)).Nodup := by rw [keys_modify]; exact h

theorem get_filter {m : List (κ × α)} (f : κ × α → Bool) (hn : (keys m).Nodup) (x : κ) :
    get (m.filter f) x = (get m x).filter fun v => f (x, v) := by
  have hn' := nodup_filter f hn
  cases h : get m x with
  | none =>
    rw [get_eq_none] at h
    have : x ∉ keys (m.filter f) := fun hx => h ((keys_filter_sublist m f).subset hx)
    rw [get_eq_none.2 this]; rfl
  | some v =>
    have hm := get_mem h
    by_cases hf : f (x, v) = true
    · rw [get_of_mem hn' (List.mem_filter.2 ⟨hm, hf⟩)]
      simp [Option.filter, hf]
    · simp only [Option.filter, hf, Bool.false_eq_true, if_false]
      rw [get_eq_none]
      intro hx
      obtain ⟨w, hw⟩ := mem_keys.1 hx
      have := get_mem hw
      rw [List.mem_filter] at this
      have e := get_of_mem hn this.1
      rw [h] at e
      injection e with e
      rw [← e] at this
      exact hf this.2

theorem get_retain {m : List (κ × α)} (f : κ → α → Bool) (hn : (keys m).Nodup) (x : κ) :
    get (retain m f) x = (get m x).filter fun v => f x v := get_filter _ hn x

theorem get_append {m m' : List (κ × α)} (x : κ) :
    get (m ++ m') x = match get m x with
      | some v => some v
      | none => get m' x := by
  induction m with
  | nil => rfl
  | cons p m ih =>
    obtain ⟨k, v⟩ := p
    rw [List.cons_append, get_cons, get_cons, ih]
    by_cases h : k = x <;> simp [h]

theorem nodup_append_single {m : List (κ × α)} {x : κ} {v : α} (h : (keys m).Nodup)
    (hx : get m x = none) : (keys (m ++ [(x, v)])).Nodup := by
  have : keys (m ++ [(x, v)]) = keys m ++ [x] := by simp [keys]
  rw [this, List.nodup_append]
  refine ⟨h, by simp, ?_⟩
  intro a ha b hb e
  simp at hb
  subst hb; subst e
  exact get_eq_none.1 hx ha

theorem erase_of_not_mem {m : List (κ × α)} {x : κ} (h : get m x = none) : erase m x = m := by
  unfold erase
  rw [List.filter_eq_self]
  intro p hp
  simp
  intro e
  exact get_eq_none.1 h (List.mem_map.2 ⟨p, hp, e⟩)

theorem erase_eq_nil {m : List (κ × α)} {x : κ} (h : erase m x = []) (y : κ) (v : α)
    (hy : get m y = some v) : y = x := by
  have := get_erase m x y
  rw [h] at this
  by_cases e : x = y
  · exact e.symm
  · simp [e, hy] at this

theorem eq_nil_of_get {m : List (κ × α)} (h : ∀ x, get m x = none) : m = [] := by
  cases m with
  | nil => rfl
  | cons p m => obtain ⟨k, v⟩ := p; have := h k; simp [get_cons] at this

theorem modify_modify_const (m : List (κ × α)) (x : κ) (a b : α) :
    modify (modify m x fun _ => a) x (fun _ => b) = modify m x fun _ => b := by
  unfold modify
  rw [List.map_map]
  apply List.map_congr_left
  intro p _
  by_cases h : p.1 = x <;> simp [h]

theorem mem_modify {m : List (κ × α)} {x : κ} {f : α → α} {p : κ × α} (h : p ∈ modify m x f) :
    ∃ q ∈ m, p.1 = q.1 ∧ p.2 = if q.1 = x then f q.2 else q.2 := by
  obtain ⟨q, hq, rfl⟩ := List.mem_map.1 h
  refine ⟨q, hq, ?_⟩
  by_cases e : q.1 = x <;> simp [e]

theorem modify_self {m : List (κ × α)} {x : κ} {v : α} (hn : (keys m).Nodup) (h : get m x = some v) :
    modify m x (fun _ => v) = m := by
  unfold modify
  conv => rhs; rw [← List.map_id m]
  apply List.map_congr_left
  intro p hp
  by_cases e : p.1 = x
  · have := get_of_mem hn (x := p.1) (v := p.2) hp
    rw [e, h] at this
    injection this with this
    simp only [e, if_true, id]
    rw [this, ← e]
  · simp [e]

end AMap

end Kry
