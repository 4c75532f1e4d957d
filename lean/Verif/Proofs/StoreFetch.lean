import Verif.Proofs.Regular
import Verif.Props.C49

/-!
# What is stored can be read

A regular object written by `Store.store` is read back by `Store.fetch` with the same values.
-/

namespace Kry
open Spec
variable {C : Crypto}

/-- The form in which an attribute comes back. -/
def normA (a : Attr) : Attr := if attrKind a.typ = some .ulongArray then { a with atype := .ulongArray } else a

@[simp] theorem normA_typ (a : Attr) : (normA a).typ = a.typ := by unfold normA; split <;> rfl
@[simp] theorem normA_value (a : Attr) : (normA a).value = a.value := by unfold normA; split <;> rfl

theorem normA_canon {a : Attr} (h : InForm a) : Canon (normA a) := by
  rcases h with h | ⟨h1, h2, h3⟩
  · unfold normA
    split
    · rename_i hk
      have : a.atype = .ulongArray := by
        have := h.1; rw [hk] at this; injection this with this; exact this.symm
      have e : ({ a with atype := .ulongArray } : Attr) = a := by rw [← this]
      rw [e]; exact h
    · exact h
  · unfold normA
    rw [if_pos h1]
    exact ⟨h1, trivial⟩

theorem normA_encode {a : Attr} (h : InForm a) : encodeAttr (normA a) = encodeAttr a := by
  rcases h with h | ⟨h1, h2, h3⟩
  · unfold normA
    split
    · rename_i hk
      have : a.atype = .ulongArray := by
        have := h.1; rw [hk] at this; injection this with this; exact this.symm
      have e : ({ a with atype := .ulongArray } : Attr) = a := by rw [← this]
      rw [e]
    · rfl
  · obtain ⟨t, k, v⟩ := a
    simp only at h1 h2 h3
    subst h2
    unfold normA
    simp only
    rw [if_pos h1]
    unfold encodeAttr
    simp only
    unfold Attr.toUlongArray Attr.toBytes
    simp only
    obtain ⟨n, hn⟩ : ∃ n, v.length = 8 * n := ⟨v.length / 8, by omega⟩
    simp [chunks8_bytes n v hn, h3]

theorem putRows_map {rows : List (Nat × DbVal)} {l : List Attr} (h : ∀ a ∈ l, InForm a) :
    putRows rows (l.map normA) = putRows rows l := by
  induction l generalizing rows with
  | nil => rfl
  | cons a l ih =>
    have hr := fun b hb => h b (List.mem_cons_of_mem _ hb)
    simp only [List.map_cons, putRows, normA_typ, normA_encode (h a (List.mem_cons_self ..))]
    split
    · rfl
    · split
      · rfl
      · exact ih hr
      · exact ih hr

/-- The object as it comes back. -/
def normO (o : Obj) : Obj := { o with attrs := o.attrs.map normA }

theorem normO_find (o : Obj) (t : Nat) : (normO o).find t = (o.find t).map normA := by
  unfold Obj.find normO
  simp only
  induction o.attrs with
  | nil => rfl
  | cons a l ih =>
    simp only [List.map_cons, List.find?_cons, normA_typ]
    split
    · rfl
    · exact ih

theorem regular_uniform {o : Obj} (h : Regular o) : ∀ a ∈ o.attrs, ∀ b ∈ o.attrs, a.typ = b.typ → a = b := by
  intro a ha b hb e
  by_cases hc : a.typ = CKA_CLASS
  · rw [h.cls a ha hc, h.cls b hb (e ▸ hc)]
  · have hn := h.once
    have ha' : a ∈ o.attrs.filter fun a => a.typ != CKA_CLASS := List.mem_filter.2 ⟨ha, by simp [hc]⟩
    have hb' : b ∈ o.attrs.filter fun a => a.typ != CKA_CLASS := List.mem_filter.2 ⟨hb, by simp [e ▸ hc]⟩
    revert ha' hb' hn
    generalize (o.attrs.filter fun a => a.typ != CKA_CLASS) = l
    intro hn h1 h2
    induction l with
    | nil => cases h1
    | cons c l ih =>
      rw [List.map_cons, List.nodup_cons] at hn
      rcases List.mem_cons.1 h1 with e1 | h1'
      · rcases List.mem_cons.1 h2 with e2 | h2'
        · rw [e1, e2]
        · exact absurd (List.mem_map.2 ⟨b, h2', by rw [← e1]; exact e.symm⟩) hn.1
      · rcases List.mem_cons.1 h2 with e2 | h2'
        · exact absurd (List.mem_map.2 ⟨a, h1', by rw [← e2]; exact e⟩) hn.1
        · exact ih hn.2 h1' h2'

theorem normO_sound {o : Obj} (h : Regular o) : Sound (normO o) := by
  refine ⟨fun a ha => ?_, fun a ha b hb e => ?_⟩
  · obtain ⟨x, hx, rfl⟩ := List.mem_map.1 ha
    exact normA_canon (h.form x hx)
  · obtain ⟨x, hx, rfl⟩ := List.mem_map.1 ha
    obtain ⟨y, hy, rfl⟩ := List.mem_map.1 hb
    rw [regular_uniform h x hx y hy (by simpa using e)]

theorem regular_uidCount {o : Obj} (h : Regular o) : uidCount o.attrs ≤ 1 := by
  have hn := h.once
  unfold uidCount
  have e : o.attrs.filter (fun a => a.typ == CKA_UNIQUE_ID) =
      (o.attrs.filter fun a => a.typ != CKA_CLASS).filter (fun a => a.typ == CKA_UNIQUE_ID) := by
    rw [List.filter_filter]
    congr 1
    funext a
    by_cases hx : a.typ = CKA_UNIQUE_ID
    · simp [hx]
    · simp [hx]
  rw [e]
  revert hn
  generalize (o.attrs.filter fun a => a.typ != CKA_CLASS) = l
  intro hn
  induction l with
  | nil => simp
  | cons a l ih =>
    rw [List.map_cons, List.nodup_cons] at hn
    rw [List.filter_cons]
    split
    · rename_i ha
      have ha : a.typ = CKA_UNIQUE_ID := by simpa using ha
      have : l.filter (fun a => a.typ == CKA_UNIQUE_ID) = [] := by
        rw [List.filter_eq_nil_iff]
        intro b hb hx
        have hx : b.typ = CKA_UNIQUE_ID := by simpa using hx
        exact hn.1 (List.mem_map.2 ⟨b, hb, hx.trans ha.symm⟩)
      rw [this]
      simp
    · exact ih hn.2

/-- Whether storage keeps an attribute of type `t`. -/
def kept (F : Factory) (t : Nat) : Prop := (attrKind t ≠ some .ignore ∧ attrKind t ≠ some .deny) ∧ t ∉ F.ephemeral

instance (F : Factory) (t : Nat) : Decidable (kept F t) := inferInstanceAs (Decidable (_ ∧ _))

theorem encode_none {a : Attr} (hc : Canon a) (h : encodeAttr a = .ok none) :
    attrKind a.typ = some .ignore ∨ attrKind a.typ = some .deny := by
  unfold encodeAttr at h
  have := hc.1
  split at h
  all_goals first | (repeat' split at h) | skip
  all_goals first | (cases h; done) | simp_all

theorem decode_kept {t : Nat} {v : DbVal} {a : Attr} (h : decodeRow t v = .ok a) :
    attrKind t ≠ some .ignore ∧ attrKind t ≠ some .deny := by
  constructor <;> intro e <;> unfold decodeRow at h <;> rw [e] at h <;> cases h

/-- Rows of a regular object. -/
theorem rows_regular {t t' : ObjTable} {u : Bytes} {o : Obj} (ok : TblOk t) (h : Regular o)
    (hu : o.getStr CKA_UNIQUE_ID = .ok u) (hs : storeObject t u o = .ok t') :
    TblOk t' ∧ ∃ r, rowsOf t' u = some r ∧ Decodes r (fun ty =>
      if attrKind ty ≠ some .ignore ∧ attrKind ty ≠ some .deny then (o.find ty).map normA else none) := by
  obtain ⟨ok', r, hp, hr⟩ := store_inv ok (regular_uidCount h) hu hs
  refine ⟨ok', r, by rw [hr, if_pos rfl], ?_⟩
  rw [← putRows_map h.form] at hp
  have hd := putRows_decode (o := normO o) (normO_sound h) hp
  intro ty
  have := hd ty
  rw [normO_find] at this
  cases hx : AMap.get r ty with
  | none =>
    rw [hx] at this
    simp only at this ⊢
    rcases this with h0 | ⟨a, ha, hz⟩
    · rw [h0]; split <;> rfl
    · rw [if_neg]
      rintro ⟨h1, h2⟩
      have hm : a ∈ (normO o).attrs := by
        rw [← normO_find] at ha
        exact find_mem ha
      have ht : a.typ = ty := by
        rw [← normO_find] at ha
        exact find_typ ha
      have := encode_none ((normO_sound h).canon a hm) hz
      rw [ht] at this
      rcases this with h | h
      · exact h1 h
      · exact h2 h
  | some v =>
    rw [hx] at this
    simp only at this ⊢
    obtain ⟨a, ha, hdec⟩ := this
    rw [if_pos (decode_kept hdec)]
    exact ⟨a, ha, hdec⟩

/-! ## Encryption -/

/-- The two managers read and write with the same key. -/
def sameKey (a b : Aci) : Prop := a.encrypt = b.encrypt ∧ (a.encrypt = true → a.key = b.key ∧ a.keyVersion = b.keyVersion)

theorem decrypt_encrypt {e e' : Env} {a b : Aci} {u p c : Bytes} (h : a.encryptValue C e u p = .ok c)
    (hk : a.key = b.key) (hv : a.keyVersion = b.keyVersion) (q : quiet e') : b.decryptValue C e' u c = .ok p := by
  unfold Aci.encryptValue at h
  split at h
  · rename_i k hk'
    unfold encryptData at h
    split at h
    · cases h
    · injection h with h
      unfold Aci.decryptValue
      rw [← hk, hk']
      simp only
      unfold decryptData
      rw [← h, C.parse_der]
      simp only
      rw [if_neg (by rw [hv]; simp), quiet_fails q]
      simp only
      rw [C.dec_enc]
  · cases h

theorem encryptLoop_spec {e : Env} {a : Aci} {u : Bytes} {ts : List Nat} {i : Nat} {o o' : Obj} (hn : ts.Nodup)
    (h : encryptLoop C e a u ts i o = .ok o') {t : Nat} (ht : t ∈ ts) :
    match o.find t with
    | none => o'.find t = none
    | some x => ∃ c e1, o'.find t = some (Attr.ofBytes t c) ∧ a.encryptValue C e1 u x.value = .ok c := by
  induction ts generalizing i o with
  | nil => cases ht
  | cons t' ts ih =>
    rw [List.nodup_cons] at hn
    unfold encryptLoop at h
    by_cases e0 : t' = t
    · subst e0
      split at h
      · rename_i hx
        rw [hx, encryptLoop_find h hn.1]
        exact hx
      · rename_i x hx
        rw [hx]
        simp only
        split at h
        · cases h
        · rename_i c hc
          split at h
          · cases h
          · rename_i o1 h1
            refine ⟨c, _, ?_, hc⟩
            rw [encryptLoop_find h hn.1, find_setAttr h1]
            exact if_pos rfl
    · have ht' : t ∈ ts := (List.mem_cons.1 ht).resolve_left (fun e => e0 e.symm)
      split at h
      · exact ih hn.2 h ht'
      · split at h
        · cases h
        · split at h
          · cases h
          · rename_i o1 h1
            have := ih hn.2 h ht'
            rw [find_setAttr h1, if_neg (show ¬ (Attr.ofBytes t' _).typ = t from e0)] at this
            exact this

theorem regular_encryptLoop {e : Env} {a : Aci} {uid : Bytes} {ts : List Nat} {i : Nat} {o o' : Obj}
    (ht : ∀ t ∈ ts, attrKind t = some .bytes)
    (hd : encryptLoop C e a uid ts i o = .ok o') (h : Regular o) : Regular o' := by
  induction ts generalizing i o with
  | nil => injection hd with hd; rw [← hd]; exact h
  | cons t ts ih =>
    have hr := fun t' h' => ht t' (List.mem_cons_of_mem _ h')
    unfold encryptLoop at hd
    split at hd
    · exact ih hr hd h
    · split at hd
      · cases hd
      · split at hd
        · cases hd
        · rename_i o1 h1
          have := ht t (List.mem_cons_self ..)
          refine ih hr hd (regular_setAttr h1 h (inForm_bytes _ _ this) ?_)
          show t ≠ CKA_CLASS
          rintro rfl
          exact absurd this (by decide +kernel)

theorem regular_delAttr {o : Obj} {t : Nat} (h : Regular o) (hc : t ≠ CKA_CLASS) : Regular (o.delAttr t) := by
  have hm : ∀ a ∈ (o.delAttr t).attrs, a ∈ o.attrs := fun a ha => (List.mem_filter.1 ha).1
  refine ⟨fun a ha => h.form a (hm a ha), ?_, fun a ha => h.cls a (hm a ha), ?_, h.lt⟩
  · unfold Obj.delAttr
    refine List.Sublist.nodup (List.Sublist.map _ ?_) h.once
    exact List.filter_sublist.filter _
  · have := h.has
    unfold Obj.find Obj.delAttr at *
    simp only
    intro hx
    apply this
    rw [List.find?_eq_none] at hx ⊢
    intro a ha e
    have e' : a.typ = CKA_CLASS := by simpa using e
    exact hx a (List.mem_filter.2 ⟨ha, by simp [e']; exact fun e => hc e.symm⟩) e

theorem regular_delAll {o : Obj} {l : List Nat} (h : Regular o) (hl : ∀ t ∈ l, t ≠ CKA_CLASS) : Regular (delAll o l) := by
  unfold delAll
  induction l generalizing o with
  | nil => exact h
  | cons t l ih =>
    rw [List.foldl_cons]
    exact ih (regular_delAttr h (hl t (List.mem_cons_self ..))) (fun t ht => hl t (List.mem_cons_of_mem _ ht))

theorem decryptLoop_spec {e : Env} {a : Aci} {u : Bytes} {ts : List Nat} {i : Nat} {o : Obj} (g : Nat → Bytes) (hn : ts.Nodup)
    (hc : CKA_CLASS ∉ ts)
    (hd : ∀ t ∈ ts, ∀ x, o.find t = some x → ∀ j, a.decryptValue C (e.sub j) u x.value = .ok (g t)) :
    ∃ o', decryptLoop C e a u ts i o = .ok o' ∧ ∀ t, o'.find t =
      if t ∈ ts then (o.find t).map (fun _ => Attr.ofBytes t (g t)) else o.find t := by
  induction ts generalizing i o with
  | nil => exact ⟨o, rfl, fun t => by rw [if_neg (by simp)]⟩
  | cons t ts ih =>
    rw [List.nodup_cons] at hn
    have hc' : CKA_CLASS ∉ ts := fun h => hc (List.mem_cons_of_mem _ h)
    have htc : t ≠ CKA_CLASS := fun h => hc (h ▸ List.mem_cons_self ..)
    unfold decryptLoop
    cases hx : o.find t with
    | none =>
      obtain ⟨o', h1, h2⟩ := ih (i := i + 1) (o := o) hn.2 hc' (fun t' ht' => hd t' (List.mem_cons_of_mem _ ht'))
      refine ⟨o', h1, fun t' => ?_⟩
      rw [h2]
      by_cases e0 : t' = t
      · subst e0; simp [hn.1, hx]
      · simp [e0]
    | some x =>
      simp only
      rw [hd t (List.mem_cons_self ..) x hx i]
      simp only
      have hset : o.setAttr (Attr.ofBytes t (g t)) = .ok (o.put (Attr.ofBytes t (g t))) := by
        unfold Obj.setAttr
        rw [if_neg (show (Attr.ofBytes t (g t)).typ ≠ CKA_CLASS from htc)]
        rfl
      rw [hset]
      simp only
      have hf := find_setAttr hset
      obtain ⟨o', h1, h2⟩ := ih (i := i + 1) (o := o.put (Attr.ofBytes t (g t))) hn.2 hc' (fun t' ht' y hy j => by
        rw [hf, if_neg (show ¬ (Attr.ofBytes t (g t)).typ = t' from fun h => hn.1 (by
          have : t = t' := h
          rw [this]; exact ht'))] at hy
        exact hd t' (List.mem_cons_of_mem _ ht') y hy j)
      refine ⟨o', h1, fun t' => ?_⟩
      rw [h2, hf]
      by_cases e0 : t' = t
      · subst e0
        rw [if_neg hn.1, if_pos (show (Attr.ofBytes t' (g t')).typ = t' from rfl), if_pos (List.mem_cons_self ..), hx]
        rfl
      · rw [if_neg (show ¬ (Attr.ofBytes t (g t)).typ = t' from fun h => e0 h.symm)]
        simp [e0]


theorem sensitive_nodup : allFactories (fun F => decide F.sensitive.Nodup) = true := by decide +kernel

theorem plain_kept : ∀ t ∈ [CKA_CLASS, CKA_KEY_TYPE, CKA_CERTIFICATE_TYPE], attrKind t = some .num := by decide +kernel

theorem normA_num {a : Attr} (h : attrKind a.typ ≠ some .ulongArray) : normA a = a := by
  unfold normA
  rw [if_neg h]

/-- Storing a regular object succeeded: then its rows say the following. -/
theorem store_rows {e : Env} {s s' : Store} {h h' : Handles} {o : Obj} {n : Nat} (ok : TblOk s.db.objs) (hr : Regular o)
    (hs : s.store C e h o = (.ok n, s', h')) :
    TblOk s'.db.objs ∧ s'.aci = s.aci ∧ ∃ F u o1 r, objFactory o = .ok F ∧ o.getStr CKA_UNIQUE_ID = .ok u ∧
      (if s.aci.encrypt then encryptLoop C (e.sub 0) s.aci u F.sensitive 0 o else .ok o) = .ok o1 ∧
      rowsOf s'.db.objs u = some r ∧
      Decodes r (fun ty => if kept F ty then (o1.find ty).map normA else none) := by
  unfold Store.store at hs
  split at hs
  · cases hs
  rename_i F hF
  split at hs
  · cases hs
  rename_i u hu
  obtain ⟨k, hm⟩ := objFactory_mem hF
  have hb := allFactories_spec sensitive_bytes hm
  simp only [List.all_eq_true, beq_iff_eq] at hb
  extract_lets enc at hs
  rcases he : enc with r | o1
  · rw [he] at hs; cases hs
  rw [he] at hs
  simp only at hs
  have hr1 : Regular o1 ∧ o1.find CKA_UNIQUE_ID = o.find CKA_UNIQUE_ID := by
    simp only [enc] at he
    split at he
    · exact ⟨regular_encryptLoop hb he hr, encryptLoop_find he (uid_notIn hF).1⟩
    · injection he with he; rw [← he]; exact ⟨hr, rfl⟩
  have hdel : ∀ t ∈ F.ephemeral, t ≠ CKA_CLASS := by
    intro t ht e
    rw [ephemeral_mem hF ht] at e
    exact absurd e (by decide)
  have hr2 := regular_delAll (l := F.ephemeral) hr1.1 hdel
  have hu2 : (delAll o1 F.ephemeral).getStr CKA_UNIQUE_ID = .ok u := by
    unfold Obj.getStr at hu ⊢
    rw [find_delAll, if_neg (uid_notIn hF).2, hr1.2]
    exact hu
  have main : ∀ db, s.db.storeObj (e.sub 1) (delAll o1 F.ephemeral) = (.ok (), db) →
      TblOk db.objs ∧ ∃ r, rowsOf db.objs u = some r ∧
      Decodes r (fun ty => if kept F ty then (o1.find ty).map normA else none) := by
    intro db hx
    unfold Db.storeObj at hx
    rw [hu2] at hx
    simp only at hx
    split at hx
    · cases hx
    · split at hx
      · cases hx
      · rename_i t' ht'
        injection hx with _ hx
        obtain ⟨ok', rows, h3, h4⟩ := rows_regular ok hr2 hu2 ht'
        rw [← hx]
        refine ⟨ok', rows, h3, ?_⟩
        have e1 : (fun ty => if attrKind ty ≠ some .ignore ∧ attrKind ty ≠ some .deny then
            ((delAll o1 F.ephemeral).find ty).map normA else none) =
            (fun ty => if kept F ty then (o1.find ty).map normA else none) := by
          funext ty
          rw [find_delAll]
          by_cases h1 : attrKind ty ≠ some .ignore ∧ attrKind ty ≠ some .deny
          · by_cases h2 : ty ∈ F.ephemeral
            · rw [if_pos h2, if_neg (fun h : kept F ty => h.2 h2)]
              split <;> rfl
            · rw [if_neg h2, if_pos h1, if_pos ⟨h1, h2⟩]
          · rw [if_neg h1, if_neg (fun h => h1 h.1)]
        rw [e1] at h4
        exact h4
  have fin : TblOk s'.db.objs ∧ s'.aci = s.aci ∧ ∃ r, rowsOf s'.db.objs u = some r ∧
      Decodes r (fun ty => if kept F ty then (o1.find ty).map normA else none) := by
    generalize s.db.storeObj (e.sub 1) (delAll o1 F.ephemeral) = p at main hs
    obtain ⟨r, db⟩ := p
    cases r with
    | error r =>
      simp only at hs
      repeat' split at hs
      all_goals cases hs
    | ok x =>
      have m := main db rfl
      simp only at hs
      repeat' split at hs
      all_goals first | (cases hs; done) | skip
      all_goals
        injection hs with _ hs
        injection hs with hs _
        rw [← hs]
        exact ⟨m.1, rfl, m.2⟩
  obtain ⟨h1, h2, r, h3, h4⟩ := fin
  exact ⟨h1, h2, F, u, o1, r, hF, hu, he, h3, h4⟩

/-- Reading what was stored. -/
theorem store_fetch {e : Env} {s s' : Store} {h h' : Handles} {o : Obj} {n : Nat} (ok : TblOk s.db.objs) (hr : Regular o)
    (hs : s.store C e h o = (.ok n, s', h')) :
    ∃ F u r, objFactory o = .ok F ∧ o.getStr CKA_UNIQUE_ID = .ok u ∧ rowsOf s'.db.objs u = some r ∧
      ∀ {e2 : Env} {s2 : Store} {h2 : Handles} {n2 : Nat} {hints : List Nat}, TblOk s2.db.objs → rowsOf s2.db.objs u = some r →
        sameKey s.aci s2.aci → h2.get n2 = some u → quiet e2 → (∀ t ∈ fetchHints hints, t < 2 ^ 32) →
        ∃ o2, s2.fetch C e2 h2 n2 hints = .ok o2 ∧ o2.handle = n2 ∧ objFactory o2 = .ok F ∧
          ∀ t, o2.find t = if (fetchHints hints = [] ∨ t ∈ fetchHints hints) ∧ kept F t then (o.find t).map normA else none := by
  obtain ⟨_, _, F, u, o1, r, hF, hu, he, hrow, hd⟩ := store_rows ok hr hs
  refine ⟨F, u, r, hF, hu, hrow, ?_⟩
  intro e2 s2 h2 n2 hints ok2 hrow2 hk hg q hh
  obtain ⟨k, hm⟩ := objFactory_mem hF
  have hb := allFactories_spec sensitive_bytes hm
  simp only [List.all_eq_true, beq_iff_eq] at hb
  have hnd := allFactories_spec sensitive_nodup hm
  simp only [decide_eq_true_eq] at hnd
  have hnum : ∀ t, attrKind t = some .num → t ∉ F.sensitive := fun t h1 h2 => by
    have := hb t h2; rw [h1] at this; cases this
  have hsame : ∀ t, t ∉ F.sensitive → o1.find t = o.find t := by
    intro t ht
    split at he
    · exact encryptLoop_find he ht
    · injection he with he; rw [← he]
  have hkept : ∀ t ∈ [CKA_CLASS, CKA_KEY_TYPE, CKA_CERTIFICATE_TYPE], kept F t := by
    intro t ht
    have h1 := plain_kept t ht
    refine ⟨by rw [h1]; exact ⟨nofun, nofun⟩, fun h2 => ?_⟩
    rw [ephemeral_mem hF h2] at ht
    exact absurd ht (by decide)
  have hcls : (if kept F CKA_CLASS then (o1.find CKA_CLASS).map normA else none) ≠ none := by
    rw [if_pos (hkept _ (by simp)), hsame _ (hnum _ (by decide +kernel))]
    have := hr.has
    cases hx : o.find CKA_CLASS with
    | none => exact absurd hx this
    | some a => simp
  have hin : hints ≠ [] → ∀ t ∈ [CKA_CLASS, CKA_KEY_TYPE, CKA_CERTIFICATE_TYPE], t ∈ fetchHints hints :=
    fun h t ht => by
      have := hints_types h
      simp only [List.mem_cons, List.not_mem_nil, or_false] at ht
      rcases ht with rfl | rfl | rfl
      · exact this.1
      · exact this.2.1
      · exact this.2.2
  have hnil : fetchHints hints ≠ [] → hints ≠ [] := by
    rintro h rfl
    exact h rfl
  obtain ⟨o3, hf3, _, hfind3⟩ := fetchByUid_rows ok2 hrow2 hd hcls (quiet_fails (quiet_sub q 0)) hh
    (fun h => hin (hnil h) _ (by simp))
  have h3 : ∀ t ∈ [CKA_CLASS, CKA_KEY_TYPE, CKA_CERTIFICATE_TYPE], o3.find t = o.find t := by
    intro t ht
    have h1 := plain_kept t ht
    rw [hfind3, if_pos, if_pos (hkept t ht), hsame t (hnum t h1)]
    · cases hx : o.find t with
      | none => rfl
      | some a =>
        simp only [Option.map_some]
        rw [normA_num (by rw [find_typ hx, h1]; nofun)]
    · by_cases hx : fetchHints hints = []
      · exact .inl hx
      · exact .inr (hin (hnil hx) t ht)
  have hF3 : objFactory o3 = .ok F := by
    rw [← hF]
    exact objFactory_congr (h3 _ (by simp)) (h3 _ (by simp)) (h3 _ (by simp))
  unfold Store.fetch
  rw [hg]
  simp only
  rw [hf3]
  simp only
  rw [hF3]
  simp only
  by_cases henc : s.aci.encrypt = true
  · rw [if_pos henc] at he
    rw [← hk.1, if_pos henc]
    obtain ⟨hkey, hver⟩ := hk.2 henc
    obtain ⟨o4, h4, hfind4⟩ := decryptLoop_spec (C := C) (e := e2.sub 1) (a := s2.aci) (u := u) (ts := F.sensitive) (i := 0) (o := o3)
      (fun t => match o.find t with | some x => x.value | none => []) hnd (hnum _ (by decide +kernel)) (by
        intro t ht x hx j
        rw [hfind3] at hx
        have sp := encryptLoop_spec hnd he ht
        cases ho : o.find t with
        | none =>
          rw [ho] at sp
          simp only at sp
          rw [sp] at hx
          repeat' split at hx
          all_goals cases hx
        | some y =>
          rw [ho] at sp
          obtain ⟨c, e1, hc1, hc2⟩ := sp
          rw [hc1] at hx
          repeat' split at hx
          all_goals first | (cases hx; done) | skip
          simp only [Option.map_some, Option.some.injEq] at hx
          rw [← hx, normA_value]
          exact decrypt_encrypt hc2 hkey hver (quiet_sub (quiet_sub q 1) j))
    rw [h4]
    refine ⟨_, rfl, rfl, ?_, ?_⟩
    · exact (objFactory_congr (b := o4) rfl rfl rfl).trans (decryptLoop_factory hF3 h4)
    intro t
    show o4.find t = _
    rw [hfind4, hfind3]
    by_cases hts : t ∈ F.sensitive
    · rw [if_pos hts]
      have sp := encryptLoop_spec hnd he hts
      cases ho : o.find t with
      | none =>
        rw [ho] at sp
        simp only at sp
        rw [sp]
        simp
      | some y =>
        rw [ho] at sp
        obtain ⟨c, e1, hc1, hc2⟩ := sp
        rw [hc1]
        by_cases ha : fetchHints hints = [] ∨ t ∈ fetchHints hints
        · by_cases hkt : kept F t
          · rw [if_pos ha, if_pos hkt, if_pos ⟨ha, hkt⟩]
            simp only [Option.map_some, Option.some.injEq]
            have hty : y.typ = t := find_typ ho
            have hfy := hr.form y (find_mem ho)
            rw [normA_num (by rw [hty, hb t hts]; nofun)]
            obtain ⟨ty, k, v⟩ := y
            simp only at hty
            subst hty
            rcases hfy with hfy | hfy
            · have := hfy.1
              simp only at this
              rw [hb _ hts] at this
              injection this with this
              rw [← this]
              rfl
            · have := hfy.1
              simp only at this
              rw [hb _ hts] at this
              cases this
          · rw [if_pos ha, if_neg hkt, if_neg (fun h => hkt h.2)]; rfl
        · rw [if_neg ha, if_neg (fun h => ha h.1)]; rfl
    · rw [if_neg hts, hsame t hts]
      by_cases ha : fetchHints hints = [] ∨ t ∈ fetchHints hints
      · by_cases hkt : kept F t
        · rw [if_pos ha, if_pos hkt, if_pos ⟨ha, hkt⟩]
        · rw [if_pos ha, if_neg hkt, if_neg (fun h => hkt h.2)]
      · rw [if_neg ha, if_neg (fun h => ha h.1)]
  · rw [if_neg henc] at he
    rw [← hk.1, if_neg henc]
    injection he with he
    subst he
    refine ⟨_, rfl, rfl, (objFactory_congr rfl rfl rfl).trans hF3, ?_⟩
    intro t
    show o3.find t = _
    rw [hfind3]
    by_cases ha : fetchHints hints = [] ∨ t ∈ fetchHints hints
    · by_cases hkt : kept F t
      · rw [if_pos ha, if_pos hkt, if_pos ⟨ha, hkt⟩]
      · rw [if_pos ha, if_neg hkt, if_neg (fun h => hkt h.2)]
    · rw [if_neg ha, if_neg (fun h => ha h.1)]

end Kry
