import Verif.Proofs.FetchCongr
import Verif.Proofs.Dead

/-!
# Writing an attribute to the database and reading it back
-/

namespace Kry

/-- An attribute in the one form its type has: what parsing a template or reading a row makes. -/
def Canon (a : Attr) : Prop :=
  attrKind a.typ = some a.atype ∧
  match a.atype with
  | .bool => a.value = [0] ∨ a.value = [1]
  | .num => a.value.length = 8
  | .date => a.value = [] ∨ vecToDate a.value = .ok a.value
  | _ => True

theorem chunks8_bytes : ∀ n (v : Bytes), v.length = 8 * n → (chunks8 v).flatMap ulongBytes = v := by
  intro n
  induction n with
  | zero => intro v h; cases v with
    | nil => rfl
    | cons => simp at h
  | succ n ih =>
    intro v h
    match v, h with
    | b0 :: b1 :: b2 :: b3 :: b4 :: b5 :: b6 :: b7 :: rest, h =>
      simp only [List.length_cons] at h
      simp only [chunks8, List.flatMap_cons, ulongBytes_fromLE _ (rfl : [b0, b1, b2, b3, b4, b5, b6, b7].length = 8)]
      rw [ih rest (by omega)]
      rfl

/-- Reading the row an attribute is written as gives the attribute. -/
theorem decode_encode {a : Attr} {v : DbVal} (h : Canon a) (he : encodeAttr a = .ok (some v)) : decodeRow a.typ v = .ok a := by
  obtain ⟨t, k, x⟩ := a
  obtain ⟨hk, hv⟩ := h
  simp only at hk hv
  unfold encodeAttr at he
  unfold decodeRow
  simp only
  rw [hk]
  cases k with
  | bool =>
    simp only [Attr.toBool] at he hv ⊢
    rcases hv with rfl | rfl
    · simp at he; subst he; rfl
    · simp at he; subst he; rfl
  | num =>
    simp only [Attr.toUlong] at he hv ⊢
    simp only [ne_eq, not_true_eq_false, if_false, hv, ulongSize] at he
    unfold numToVal at he
    split at he
    · cases he
    · rename_i w hw
      injection he with he
      injection he with he
      subst he
      split at hw
      · rename_i e
        injection hw with hw
        subst hw
        simp only [valToUlong, if_true]
        unfold Attr.ofUlong
        rw [← e, ulongBytes_fromLE _ hv]
      · split at hw
        · injection hw with hw
          subst hw
          simp only [valToUlong]
          rw [if_neg (by omega), if_neg (by omega)]
          simp only [Int.toNat_natCast]
          unfold Attr.ofUlong
          rw [ulongBytes_fromLE _ hv]
        · cases hw
  | string =>
    simp only [Attr.toStr] at he
    split at he
    · cases he
    · rename_i s hs
      injection he with he
      injection he with he
      subst he
      split at hs
      · cases hs
      split at hs
      · injection hs with hs
        subst hs
        rfl
      · cases hs
  | bytes =>
    simp only [Attr.toBytes, ne_eq, not_true_eq_false, if_false] at he
    injection he with he
    injection he with he
    subst he
    rfl
  | ulongArray =>
    simp only [Attr.toUlongArray, ne_eq, not_true_eq_false, if_false, ulongSize] at he
    split at he
    · cases he
    · rename_i l hl
      split at hl
      · cases hl
      rename_i hm
      injection hl with hl
      subst hl
      injection he with he
      injection he with he
      subst he
      have hm : x.length % 8 = 0 := by simpa using hm
      have := chunks8_bytes (x.length / 8) x (by omega)
      simp only [this]
      rw [if_neg (by simpa using hm)]
      unfold Attr.ofUlongArray
      rw [this]
  | date =>
    simp only [Attr.toDateString, ne_eq, not_true_eq_false, if_false] at he hv
    split at he
    · cases he
    · rename_i s hs
      injection he with he
      injection he with he
      subst he
      split at hs
      · injection hs with hs; subst hs; rfl
      · injection hs with hs
        subst hs
        rcases hv with hv | hv
        · cases hv
        · simp only [stringToDate]
          simp [hv, Attr.ofDate]
      · cases hs
  | deny => cases he
  | ignore => cases he

theorem canon_decode {t : Nat} {v : DbVal} {a : Attr} (h : decodeRow t v = .ok a) : Canon a := by
  unfold decodeRow at h
  split at h
  · cases h
  · rename_i hk
    split at h
    · injection h with h; subst h
      refine ⟨hk, ?_⟩
      simp only [Attr.ofBool]
      split <;> simp
    · cases h
  · rename_i hk
    split at h
    · split at h
      · cases h
      · injection h with h; subst h
        exact ⟨hk, ulongBytes_length _⟩
    · cases h
  · rename_i hk
    split at h
    · injection h with h; subst h; exact ⟨hk, trivial⟩
    · cases h
  · rename_i hk
    split at h
    · injection h with h; subst h; exact ⟨hk, trivial⟩
    · cases h
  · rename_i hk
    split at h
    · split at h
      · cases h
      · injection h with h; subst h; exact ⟨hk, trivial⟩
    · cases h
  · rename_i hk
    split at h
    · injection h with h; subst h; exact ⟨hk, .inl rfl⟩
    · split at h
      · cases h
      · rename_i d hd
        injection h with h; subst h
        refine ⟨hk, .inr ?_⟩
        unfold stringToDate at hd
        split at hd
        · split at hd
          · cases hd
          · have := hd
            unfold vecToDate at hd
            split at hd
            · cases hd
            split at hd
            · injection hd with hd
              subst hd
              exact this
            · cases hd
        · cases hd
    · cases h
  · cases h
  · cases h

theorem canon_fromCk {c : CkAttr} {a : Attr} (h : Attr.fromCk c = .ok a) : Canon a := by
  unfold Attr.fromCk at h
  split at h
  · cases h
  · rename_i hk
    split at h
    · injection h with h; subst h
      refine ⟨hk, ?_⟩
      simp only [Attr.ofBool]
      split <;> simp
    · cases h
  · rename_i hk
    split at h
    · injection h with h; subst h
      exact ⟨hk, ulongBytes_length _⟩
    · cases h
  · rename_i hk
    split at h
    · injection h with h; subst h; exact ⟨hk, trivial⟩
    · cases h
  · rename_i hk
    injection h with h; subst h; exact ⟨hk, trivial⟩
  · rename_i hk
    injection h with h; subst h; exact ⟨hk, trivial⟩
  · rename_i hk
    split at h
    · rename_i d hd
      injection h with h; subst h
      refine ⟨hk, .inr ?_⟩
      have v2 : ∀ x y, vecToDate x = .ok y → vecToDate y = .ok y := by
        intro x y h
        have := h
        unfold vecToDate at h
        split at h
        · cases h
        split at h
        · injection h with h; subst h; exact this
        · cases h
      unfold CkAttr.toDate at hd
      split at hd
      · injection hd with hd; subst hd; exact (by decide : vecToDate (List.replicate 8 48) = .ok (List.replicate 8 48))
      · split at hd
        · cases hd
        · split at hd
          · cases hd
          · exact v2 _ _ hd
    · cases h
  · cases h
  · rename_i hk
    injection h with h; subst h; exact ⟨hk, trivial⟩

/-! ## Whole objects -/

/-- Every attribute is in its one form, and attributes of the same type are the same. -/
structure Sound (o : Obj) : Prop where
  canon : ∀ a ∈ o.attrs, Canon a
  uniform : ∀ a ∈ o.attrs, ∀ b ∈ o.attrs, a.typ = b.typ → a = b

theorem find_some {o : Obj} {t : Nat} {a : Attr} (h : o.find t = some a) : a ∈ o.attrs ∧ a.typ = t :=
  ⟨List.mem_of_find?_eq_some h, by simpa using List.find?_some h⟩

theorem encFold_uniform {t : Nat} {as : List Attr} {a : Attr} (hu : ∀ b ∈ as, b.typ = t → b = a)
    (hm : a ∈ as) (ht : a.typ = t) {w : Option DbVal} (he : encodeAttr a = .ok w) :
    as.foldl (encFold t) none = w := by
  have key : ∀ (as : List Attr) (acc : Option DbVal), (∀ b ∈ as, b.typ = t → b = a) → (acc = w ∨ (acc = none ∧ a ∈ as)) →
      as.foldl (encFold t) acc = w := by
    intro as
    induction as with
    | nil => intro acc _ h; rcases h with h | ⟨_, h⟩
             · exact h
             · cases h
    | cons b as ih =>
      intro acc hu h
      rw [List.foldl_cons]
      refine ih _ (fun c hc => hu c (.tail _ hc)) ?_
      by_cases hb : b.typ = t
      · have := hu b (.head _) hb
        subst this
        left
        unfold encFold
        rw [if_pos hb, he]
        cases w with
        | some v => rfl
        | none => rcases h with h | ⟨h, _⟩ <;> simp [h]
      · have e : encFold t acc b = acc := by unfold encFold; rw [if_neg hb]
        rw [e]
        rcases h with h | ⟨h, h2⟩
        · exact .inl h
        · refine .inr ⟨h, ?_⟩
          rcases List.mem_cons.1 h2 with h2 | h2
          · subst h2; exact absurd ht hb
          · exact h2
  exact key as none hu (.inr ⟨rfl, hm⟩)

theorem putRows_encodes {rows rows' : List (Nat × DbVal)} {as : List Attr} (h : putRows rows as = .ok rows') :
    ∀ a ∈ as, ∃ w, encodeAttr a = .ok w := by
  induction as generalizing rows with
  | nil => intro a ha; cases ha
  | cons b as ih =>
    unfold putRows at h
    split at h
    · cases h
    intro a ha
    split at h
    · cases h
    · rename_i hb
      rcases List.mem_cons.1 ha with rfl | ha
      · exact ⟨_, hb⟩
      · exact ih h a ha
    · rename_i hb
      rcases List.mem_cons.1 ha with rfl | ha
      · exact ⟨_, hb⟩
      · exact ih h a ha

/-- The rows written for an object decode to its attributes. -/
theorem putRows_decode {o : Obj} {rows : List (Nat × DbVal)} (hs : Sound o) (h : putRows [] o.attrs = .ok rows) (t : Nat) :
    match AMap.get rows t with
    | none => o.find t = none ∨ ∃ a, o.find t = some a ∧ encodeAttr a = .ok none
    | some v => ∃ a, o.find t = some a ∧ decodeRow t v = .ok a := by
  obtain ⟨_, hg⟩ := get_putRows (rows := []) List.nodup_nil h
  rw [hg t]
  show match o.attrs.foldl (encFold t) none with
    | none => _
    | some v => _
  cases hf : o.find t with
  | none =>
    have : ∀ a ∈ o.attrs, a.typ ≠ t := by
      intro a ha e
      unfold Obj.find at hf
      rw [List.find?_eq_none] at hf
      exact hf a ha (by simp [e])
    rw [encFold_none this]
    exact .inl rfl
  | some a =>
    obtain ⟨hm, ht⟩ := find_some hf
    obtain ⟨w, hw⟩ := putRows_encodes h a hm
    rw [encFold_uniform (fun b hb e => hs.uniform b hb a hm (e.trans ht.symm)) hm ht hw]
    cases w with
    | none => exact .inr ⟨a, rfl, hw⟩
    | some v => exact ⟨a, rfl, by rw [← ht]; exact decode_encode (hs.canon a hm) hw⟩

theorem mem_setList {l : List Attr} {a b : Attr} (h : b ∈ Obj.setList l a) : b = a ∨ b ∈ l := by
  induction l with
  | nil => exact .inl (by simpa [Obj.setList] using h)
  | cons c l ih =>
    unfold Obj.setList at h
    split at h
    · rcases List.mem_cons.1 h with h | h
      · exact .inl h
      · exact .inr (.tail _ h)
    · rcases List.mem_cons.1 h with h | h
      · exact .inr (by rw [h]; exact .head _)
      · rcases ih h with h | h
        · exact .inl h
        · exact .inr (.tail _ h)

theorem types_setList (l : List Attr) (a : Attr) :
    (Obj.setList l a).map Attr.typ = if a.typ ∈ l.map Attr.typ then l.map Attr.typ else l.map Attr.typ ++ [a.typ] := by
  induction l with
  | nil => simp [Obj.setList]
  | cons c l ih =>
    unfold Obj.setList
    by_cases e : c.typ = a.typ
    · rw [if_pos e]
      simp [e]
    · rw [if_neg e, List.map_cons, ih, List.map_cons]
      have : (a.typ ∈ c.typ :: l.map Attr.typ) = (a.typ ∈ l.map Attr.typ) := by
        rw [List.mem_cons]
        exact propext ⟨fun h => h.resolve_left (fun h => e h.symm), .inr⟩
      simp only [this]
      split <;> rfl

/-- An object with one attribute of each type, all in their one form. -/
structure Sound1 (o : Obj) : Prop where
  canon : ∀ a ∈ o.attrs, Canon a
  types : (o.attrs.map Attr.typ).Nodup

theorem Sound1.sound {o : Obj} (h : Sound1 o) : Sound o := by
  refine ⟨h.canon, fun a ha b hb e => ?_⟩
  have := h.types
  revert ha hb this
  generalize o.attrs = l
  intro ha hb hn
  induction l with
  | nil => cases ha
  | cons c l ih =>
    rw [List.map_cons, List.nodup_cons] at hn
    rcases List.mem_cons.1 ha with h1 | h1 <;> rcases List.mem_cons.1 hb with h2 | h2
    · rw [h1, h2]
    · subst h1; exact (hn.1 (by rw [e]; exact List.mem_map_of_mem h2)).elim
    · subst h2; exact (hn.1 (by rw [← e]; exact List.mem_map_of_mem h1)).elim
    · exact ih h1 h2 hn.2

theorem Sound1.setAttr {o o' : Obj} {a : Attr} (h : Sound1 o) (ha : Canon a) (hs : o.setAttr a = .ok o') : Sound1 o' := by
  have : o'.attrs = Obj.setList o.attrs a := by
    unfold Obj.setAttr at hs
    split at hs
    · split at hs
      · cases hs
      · injection hs with hs; rw [← hs]
    · injection hs with hs; rw [← hs]
  constructor
  · rw [this]
    intro b hb
    rcases mem_setList hb with rfl | hb
    · exact ha
    · exact h.canon b hb
  · rw [this, types_setList]
    split
    · exact h.types
    · rename_i hn
      rw [List.nodup_append]
      refine ⟨h.types, by simp, ?_⟩
      intro x hx y hy e
      simp at hy
      subst hy; subst e
      exact hn hx

theorem sound1_new (c : Nat) : Sound1 (Obj.new c) := by
  constructor
  · intro a ha
    have : a = Attr.ofUlong CKA_CLASS c := by simpa [Obj.new] using ha
    subst this
    exact ⟨(by decide +kernel : attrKind CKA_CLASS = some .num), ulongBytes_length _⟩
  · simp [Obj.new]

theorem sound1_decode {rows : List (Nat × DbVal)} {o o' : Obj} (h : Sound1 o) (hd : decodeRows o rows = .ok o') :
    Sound1 o' := by
  induction rows generalizing o with
  | nil => injection hd with hd; rw [← hd]; exact h
  | cons p rows ih =>
    obtain ⟨t, v⟩ := p
    unfold decodeRows at hd
    split at hd
    · cases hd
    · rename_i a ha
      split at hd
      · cases hd
      · rename_i o1 h1
        exact ih (h.setAttr (canon_decode ha) h1) hd

theorem sound1_setAllCk {tm : Template} {o o' : Obj} (h : Sound1 o) (hs : setAllCk o tm = .ok o') : Sound1 o' := by
  induction tm generalizing o with
  | nil => injection hs with hs; rw [← hs]; exact h
  | cons c tm ih =>
    unfold setAllCk at hs
    split at hs
    · cases hs
    · rename_i a ha
      split at hs
      · cases hs
      · rename_i o1 h1
        exact ih (h.setAttr (canon_fromCk ha) h1) hs

theorem sound1_delAll {l : List Nat} {o : Obj} (h : Sound1 o) : Sound1 (delAll o l) := by
  unfold delAll
  induction l generalizing o with
  | nil => exact h
  | cons t l ih =>
    rw [List.foldl_cons]
    refine ih ⟨fun a ha => h.canon a (List.mem_filter.1 ha).1, ?_⟩
    exact (List.Sublist.map _ List.filter_sublist).nodup h.types

/-- What is read from the database is sound. -/
theorem fetchByUid_sound {e : Env} {db : Db} {u : Bytes} {hints : List Nat} {o : Obj} (ok : TblOk db.objs)
    (h : db.fetchByUid e u hints = .ok o) : Sound1 o := by
  obtain ⟨r, _, _, _, hd⟩ := fetchByUid_ok ok h
  exact sound1_decode (sound1_new _) hd

theorem setAllCk_find {tm : Template} {o o' : Obj} {t : Nat} (hs : setAllCk o tm = .ok o') (ht : ∀ c ∈ tm, c.typ ≠ t) :
    o'.find t = o.find t := by
  induction tm generalizing o with
  | nil => injection hs with hs; rw [← hs]
  | cons c tm ih =>
    unfold setAllCk at hs
    split at hs
    · cases hs
    · rename_i a ha
      split at hs
      · cases hs
      · rename_i o1 h1
        rw [ih hs (fun d hd => ht d (.tail _ hd)), find_setAttr h1, if_neg]
        rw [fromCk_typ ha]
        exact ht c (.head _)

end Kry
