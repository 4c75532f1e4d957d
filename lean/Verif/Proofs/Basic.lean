import Verif.Model.Factory

/-! # Helper lemmas: encodings, association lists, attribute lists -/

namespace Kry

/-! ## Little-endian numbers -/

@[simp] theorem toLE_length (k n : Nat) : (toLE k n).length = k := by
  induction k generalizing n with
  | zero => rfl
  | succ k ih => simp [toLE, ih]

theorem fromLE_toLE (k n : Nat) (h : n < 256 ^ k) : fromLE (toLE k n) = n := by
  induction k generalizing n with
  | zero => simp at h; subst h; rfl
  | succ k ih =>
    have h2 : n / 256 < 256 ^ k := by
      rw [Nat.pow_succ] at h
      exact Nat.div_lt_of_lt_mul (by omega)
    simp only [toLE, fromLE, ih _ h2, UInt8.toNat_ofNat']
    omega

theorem fromLE_lt (bs : Bytes) : fromLE bs < 256 ^ bs.length := by
  induction bs with
  | nil => simp [fromLE]
  | cons b bs ih =>
    have := b.toNat_lt
    simp only [fromLE, List.length_cons, Nat.pow_succ]
    omega

theorem toLE_fromLE (bs : Bytes) : toLE bs.length (fromLE bs) = bs := by
  induction bs with
  | nil => rfl
  | cons b bs ih =>
    have hb := b.toNat_lt
    simp only [fromLE, List.length_cons, toLE]
    have h1 : (b.toNat + 256 * fromLE bs) % 256 = b.toNat := by omega
    have h2 : (b.toNat + 256 * fromLE bs) / 256 = fromLE bs := by omega
    rw [h1, h2, ih, UInt8.ofNat_toNat]

/-- The range of a `CK_ULONG`. -/
abbrev ulongMax : Nat := 2 ^ 64

theorem fromLE_ulongBytes (n : Nat) (h : n < 2 ^ 64) : fromLE (ulongBytes n) = n := by
  apply fromLE_toLE; have e : (256 : Nat) ^ 8 = 2 ^ 64 := by decide
  rw [e]; exact h

theorem ulongBytes_fromLE (bs : Bytes) (h : bs.length = 8) : ulongBytes (fromLE bs) = bs := by
  have := toLE_fromLE bs
  rw [h] at this; exact this

@[simp] theorem ulongBytes_length (n : Nat) : (ulongBytes n).length = 8 := by simp [ulongBytes]

theorem fromLE_lt8 (bs : Bytes) (h : bs.length = 8) : fromLE bs < 2 ^ 64 := by
  have := fromLE_lt bs; have e : (256 : Nat) ^ 8 = 2 ^ 64 := by decide
  rw [h, e] at this; exact this

theorem toBE_length (k n : Nat) : (toBE k n).length = k := by simp [toBE]

theorem fromBE_toBE (k n : Nat) (h : n < 256 ^ k) : fromBE (toBE k n) = n := by
  simp [fromBE, toBE, fromLE_toLE _ _ h]

theorem toLE_injective (k n m : Nat) (hn : n < 256 ^ k) (hm : m < 256 ^ k)
    (h : toLE k n = toLE k m) : n = m := by
  rw [← fromLE_toLE k n hn, ← fromLE_toLE k m hm, h]

/-! ## Attribute lists -/

@[simp] theorem find_setList (l : List Attr) (a : Attr) (t : Nat) :
    (Obj.setList l a).find? (fun x => x.typ == t)
      = if a.typ = t then some a else l.find? (fun x => x.typ == t) := by
  induction l with
  | nil => by_cases h : a.typ = t <;> simp [Obj.setList, h]
  | cons b l ih =>
    simp only [Obj.setList]
    by_cases hb : b.typ = a.typ
    · simp only [hb, if_true, List.find?_cons]
      by_cases ht : a.typ = t
      · simp [ht]
      · have : (a.typ == t) = false := by simp [ht]
        have h2 : (b.typ == t) = false := by simp [hb, ht]
        simp [this, ht]
    · simp only [hb, if_false, List.find?_cons]
      by_cases hbt : b.typ = t
      · have h3 : ¬ a.typ = t := fun e => hb (by rw [hbt, e])
        simp [hbt, h3]
      · have h2 : (b.typ == t) = false := by simp [hbt]
        simp [h2, ih]

theorem find_setBool (o : Obj) (t : Nat) (b : Bool) (u : Nat) :
    (o.setBool t b).find u = if t = u then some (Attr.ofBool t b) else o.find u := by
  simp [Obj.find, Obj.setBool, Attr.ofBool]

theorem find_put (o : Obj) (a : Attr) (u : Nat) :
    (o.put a).find u = if a.typ = u then some a else o.find u := by
  simp [Obj.find, Obj.put]

theorem find_push (o : Obj) (a : Attr) (u : Nat) :
    (o.push a).find u = (o.find u).or (if a.typ = u then some a else none) := by
  by_cases h : a.typ = u <;> simp [Obj.find, Obj.push, List.find?_append, h]

@[simp] theorem toBool_ofBool (t : Nat) (b : Bool) : (Attr.ofBool t b).toBool = .ok b := by
  cases b <;> rfl

theorem toUlong_ofUlong (t n : Nat) (h : n < 2 ^ 64) : (Attr.ofUlong t n).toUlong = .ok n := by
  have := fromLE_ulongBytes n h
  simp [Attr.toUlong, Attr.ofUlong, ulongSize, this]

theorem find_typ {o : Obj} {t : Nat} {a : Attr} (h : o.find t = some a) : a.typ = t := by
  have := List.find?_some h; simpa using this

theorem fromCk_typ {c : CkAttr} {a : Attr} (h : Attr.fromCk c = .ok a) : a.typ = c.typ := by
  unfold Attr.fromCk at h
  split at h
  all_goals first | (cases h; done) | skip
  all_goals first
    | (split at h <;> first | (cases h; done) | (injection h with h; subst h; rfl))
    | (injection h with h; subst h; rfl)

theorem setAttr_ok {o o' : Obj} {a : Attr} (h : o.setAttr a = .ok o') :
    o'.attrs = Obj.setList o.attrs a ∧ o'.handle = o.handle ∧ o'.session = o.session := by
  unfold Obj.setAttr at h
  split at h
  · split at h
    · cases h
    · injection h with h; subst h; simp
  · injection h with h; subst h; simp

theorem find_setAttr {o o' : Obj} {a : Attr} (h : o.setAttr a = .ok o') (u : Nat) :
    o'.find u = if a.typ = u then some a else o.find u := by
  have := (setAttr_ok h).1
  simp [Obj.find, this]

/-! ## Factory tables -/

theorem findF_typ {fa : List FAttr} {t : Nat} {f : FAttr} (h : findF fa t = some f) : f.typ = t := by
  have := List.find?_some h; simpa using this

theorem findF_mem {fa : List FAttr} {t : Nat} {f : FAttr} (h : findF fa t = some f) : f ∈ fa :=
  List.mem_of_find?_eq_some h

/-- A decidable statement about every factory in the registry. -/
def allFactories (p : Factory → Bool) : Bool := registry.all fun e => p e.2

theorem AMap.get_mem {κ α : Type} [DecidableEq κ] {m : List (κ × α)} {x : κ} {v : α}
    (h : AMap.get m x = some v) : (x, v) ∈ m := by
  induction m with
  | nil => cases h
  | cons p m ih =>
    obtain ⟨k, w⟩ := p
    unfold AMap.get at h
    split at h
    · rename_i hk; injection h with h; subst h; subst hk; simp
    · exact List.mem_cons_of_mem _ (ih h)

theorem getFactory_mem {c t : Nat} {F : Factory} (h : getFactory c t = .ok F) :
    ((c, t), F) ∈ registry := by
  unfold getFactory at h
  split at h
  · rename_i f hf; injection h with h; subst h; exact AMap.get_mem hf
  · cases h

theorem objFactory_mem {o : Obj} {F : Factory} (h : objFactory o = .ok F) :
    ∃ k, (k, F) ∈ registry := by
  unfold objFactory at h
  split at h
  · cases h
  · simp only at h
    split at h
    · cases h
    · exact ⟨_, getFactory_mem h⟩

theorem allFactories_spec {p : Factory → Bool} (h : allFactories p = true) {k : Nat × Nat} {F : Factory}
    (hF : (k, F) ∈ registry) : p F = true := by
  unfold allFactories at h
  rw [List.all_eq_true] at h
  exact h _ hF

end Kry
